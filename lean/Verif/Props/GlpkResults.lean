import Verif.Model.GlpkResults
import Verif.Props.GlpkMore
import Verif.Props.GlpkExamples
import Verif.Props.PlanData

/-!
# C175, C176: what the GLPK models report
-/

namespace Pyensys

/-! ## specification -/

/-- an entry of a table with three and with four indices; a table that is `None` has none -/
def tab3 (t : Option (List (List (List Rat)))) (i j n : Nat) : Option Rat := ((t.bind (fun (t : List (List (List Rat))) => t[i]?)).bind (fun (r : List (List Rat)) => r[j]?)).bind (fun (r : List Rat) => r[n]?)
def tab4 (t : Option (List (List (List (List Rat))))) (i j k n : Nat) : Option Rat :=
  (((t.bind (fun (t : List (List (List (List Rat)))) => t[i]?)).bind (fun (r : List (List (List Rat))) => r[j]?)).bind (fun (r : List (List Rat)) => r[k]?)).bind (fun (r : List Rat) => r[n]?)

/-- the shape of a table: it has exactly the entries with indices below the sizes -/
def Shape3 (t : Option (List (List (List Rat)))) (a b m : Nat) : Prop := ∀ i j n, (tab3 t i j n).isSome ↔ i < a ∧ j < b ∧ n < m
def Shape4 (t : Option (List (List (List (List Rat))))) (a b d m : Nat) : Prop := ∀ i j k n, (tab4 t i j k n).isSome ↔ i < a ∧ j < b ∧ k < d ∧ n < m

/-- everything that can be asked for after the optimal power flow -/
structure GrTables where
  thermal : Option (List (List (List Rat)))
  res : Option (List (List (List Rat)))
  hydro : Option (List (List (List Rat)))
  pumps : Option (List (List (List Rat)))
  thermalC : Option (List (List (List Rat)))
  resC : Option (List (List (List Rat)))
  hydroC : Option (List (List (List Rat)))
  angle : Option (List (List (List (List Rat))))
  lc : Option (List (List (List (List Rat))))
  gc : Option (List (List (List (List Rat))))
  flow : Option (List (List (List (List Rat))))
  loss : Option (List (List (List (List Rat))))

/-- what is returned when all `Get...` functions are called -/
structure Reported (c : GnCase) (p : GProb) (x : Nat → Rat) (T : GrTables) : Prop where
  thermal : grThermal c p x = .ok T.thermal
  res : grRes c p x = .ok T.res
  hydro : grHydro c p x = .ok T.hydro
  pumps : grPumps c p x = .ok T.pumps
  thermalC : grThermalC c p x = .ok T.thermalC
  resC : grResC c p x = .ok T.resC
  hydroC : grHydroC c p x = .ok T.hydroC
  angle : grAngle c p x = .ok T.angle
  lc : grLc c p x = .ok T.lc
  gc : grGc c p x = .ok T.gc
  flow : grFlow c p x = .ok T.flow
  loss : grLoss c p x = .ok T.loss

/-- the plan that the tables describe: powers in MW over the base power, costs and angles as they are -/
def GrTables.plan (T : GrTables) (base : Rat) : GnSol where
  conv i j n := (tab3 T.thermal i j n).getD 0 / base
  res i j n := (tab3 T.res i j n).getD 0 / base
  hydro i j n := (tab3 T.hydro i j n).getD 0 / base
  convC i j n := (tab3 T.thermalC i j n).getD 0
  resC i j n := (tab3 T.resC i j n).getD 0
  hydroC i j n := (tab3 T.hydroC i j n).getD 0
  pump i j n := (tab3 T.pumps i j n).getD 0 / base
  flow i j k n := (tab4 T.flow i j k n).getD 0 / base
  loss i j k n := (tab4 T.loss i j k n).getD 0 / base
  lc i j k n := (tab4 T.lc i j k n).getD 0 / base
  gc i j k n := (tab4 T.gc i j k n).getD 0 / base
  angle i j k n := (tab4 T.angle i j k n).getD 0

/-- the shapes -/
structure Shapes (c : GnCase) (T : GrTables) : Prop where
  thermal : Shape3 T.thermal c.insts c.periods c.conv.length ∧ Shape3 T.thermalC c.insts c.periods c.conv.length
  res : Shape3 T.res c.insts c.periods c.res.length ∧ Shape3 T.resC c.insts c.periods c.res.length
  hydro : Shape3 T.hydro c.insts c.periods c.hydro.length ∧ Shape3 T.hydroC c.insts c.periods c.hydro.length
  pumps : Shape3 T.pumps c.insts c.periods c.pumps.length
  angle : Shape4 T.angle c.insts c.periods (c.cont + 1) c.buses.length
  flow : Shape4 T.flow c.insts c.periods (c.cont + 1) c.branches.length
  curtail : c.feas = true → Shape4 T.lc c.insts c.periods (c.cont + 1) c.buses.length ∧ Shape4 T.gc c.insts c.periods (c.cont + 1) c.buses.length
  loss : c.lossPieces ≠ none → Shape4 T.loss c.insts c.periods (c.cont + 1) c.branches.length
  absent : (c.conv = [] → T.thermal = none ∧ T.thermalC = none) ∧ (c.res = [] → T.res = none ∧ T.resC = none) ∧ (c.hydro = [] → T.hydro = none ∧ T.hydroC = none) ∧
    (c.pumps = [] → T.pumps = none) ∧ (c.feas = false → T.lc = none ∧ T.gc = none) ∧ (c.lossPieces = none → T.loss = none)

/-! ## proof -/

theorem gPrim_has {p : GProb} {x : Nat → Rat} (hn : (p.cols.map (·.1)).Nodup) {k : GKey} {off : Nat} (h : p.has (k, off)) : gPrim p x k off = .ok (p.val x k off) := by
  obtain ⟨bs, h1, h2⟩ := h
  obtain ⟨s, hs, hb⟩ := gStart_mem hn h1
  simp only at hs h2 hb
  have hlt : s + off < (p.cols.flatMap (·.2)).length := by
    have := hb off h2
    rw [List.getElem?_eq_getElem h2] at this
    exact (List.getElem?_eq_some_iff.1 this).1
  unfold gPrim GProb.col GProb.val
  simp only [hs, Option.map_some, hlt, if_true, Option.getD_some]

theorem mapM_range_ok {α : Type} (f : Nat → Except PyErr α) (g : Nat → α) (n : Nat) (h : ∀ i, i < n → f i = .ok (g i)) : (List.range n).mapM f = .ok ((List.range n).map g) :=
  mapM_all f g _ (fun i hi => h i (List.mem_range.1 hi))

theorem grRow_ok {p : GProb} {x : Nat → Rat} (hn : (p.cols.map (·.1)).Nodup) {k : GKey} {n : Nat} (f : Rat) (h : ∀ e, e < n → p.has (k, e)) :
    grRow p x k n f = .ok ((List.range n).map (fun e => p.val x k e * f)) := by
  unfold grRow
  refine mapM_range_ok _ _ _ (fun e he => ?_)
  simp only [gPrim_has hn (h e he), bind, Except.bind]

theorem grTimes_ok {α : Type} {c : GnCase} {f : Nat → Nat → Except PyErr α} {g : Nat → Nat → α} (h : ∀ i j, i < c.insts → j < c.periods → f i j = .ok (g i j)) :
    grTimes c f = .ok ((List.range c.insts).map (fun i => (List.range c.periods).map (fun j => g i j))) := by
  unfold grTimes
  exact mapM_range_ok _ _ _ (fun i hi => mapM_range_ok _ _ _ (fun j hj => h i j hi hj))

theorem grStates_ok {α : Type} {c : GnCase} {f : Nat → Nat → Nat → Except PyErr α} {g : Nat → Nat → Nat → α}
    (h : ∀ i j k, i < c.insts → j < c.periods → k ≤ c.cont → f i j k = .ok (g i j k)) :
    grStates c f = .ok ((List.range c.insts).map (fun i => (List.range c.periods).map (fun j => (List.range (c.cont + 1)).map (fun k => g i j k)))) := by
  unfold grStates
  exact grTimes_ok (fun i j hi hj => mapM_range_ok _ _ _ (fun k hk => h i j k hi hj (by omega)))

theorem tab3_range (f : Nat → Nat → Nat → Rat) (a b m i j n : Nat) :
    tab3 (some ((List.range a).map (fun i => (List.range b).map (fun j => (List.range m).map (fun n => f i j n))))) i j n =
    if i < a ∧ j < b ∧ n < m then some (f i j n) else none := by
  unfold tab3
  by_cases hi : i < a
  · by_cases hj : j < b
    · by_cases hn : n < m
      · simp [hi, hj, hn]
      · simp [hi, hj, hn]
    · simp [hi, hj]
  · simp [hi]

theorem tab4_range (f : Nat → Nat → Nat → Nat → Rat) (a b d m i j k n : Nat) :
    tab4 (some ((List.range a).map (fun i => (List.range b).map (fun j => (List.range d).map (fun k => (List.range m).map (fun n => f i j k n)))))) i j k n =
    if i < a ∧ j < b ∧ k < d ∧ n < m then some (f i j k n) else none := by
  unfold tab4
  by_cases hi : i < a
  · by_cases hj : j < b
    · by_cases hk : k < d
      · by_cases hn : n < m
        · simp [hi, hj, hk, hn]
        · simp [hi, hj, hk, hn]
      · simp [hi, hj, hk]
    · simp [hi, hj]
  · simp [hi]

/-- a table with three indices that is only there if there are elements -/
theorem grIf_times {c : GnCase} {p : GProb} {x : Nat → Rat} (hn : (p.cols.map (·.1)).Nodup) (m : Nat) (tag : GTag) (f : Rat)
    (h : ∀ i j, i < c.insts → j < c.periods → ∀ e, e < m → p.has ((tag, [i, j]), e)) :
    ∃ t, grIf (0 < m) (grTimes c (fun i j => grRow p x (tag, [i, j]) m f)) = .ok t ∧ (m = 0 → t = none) ∧ Shape3 t c.insts c.periods m ∧
      ∀ i j n, i < c.insts → j < c.periods → n < m → tab3 t i j n = some (p.val x (tag, [i, j]) n * f) := by
  by_cases hm : m = 0
  · subst hm
    refine ⟨none, by simp [grIf], fun _ => rfl, fun i j n => by simp [tab3], fun i j n _ _ h => by omega⟩
  · have e := grTimes_ok (c := c) (f := fun i j => grRow p x (tag, [i, j]) m f) (g := fun i j => (List.range m).map (fun e => p.val x (tag, [i, j]) e * f))
      (fun i j hi hj => grRow_ok hn f (h i j hi hj))
    refine ⟨some ((List.range c.insts).map (fun i => (List.range c.periods).map (fun j => (List.range m).map (fun e => p.val x (tag, [i, j]) e * f)))), ?_,
      fun h => absurd h hm, ?_, ?_⟩
    · unfold grIf
      rw [if_pos (by simpa using Nat.pos_of_ne_zero hm), e]
      rfl
    · intro i j n
      rw [tab3_range (fun i j e => p.val x (tag, [i, j]) e * f)]
      split <;> simp_all
    · intro i j n hi hj hn
      rw [tab3_range (fun i j e => p.val x (tag, [i, j]) e * f), if_pos ⟨hi, hj, hn⟩]

theorem grIf_states {c : GnCase} {p : GProb} {x : Nat → Rat} (hn : (p.cols.map (·.1)).Nodup) (b : Bool) (m : Nat) (tag : GTag) (f : Rat)
    (h : b = true → ∀ i j k, i < c.insts → j < c.periods → k ≤ c.cont → ∀ e, e < m → p.has ((tag, [i, j, k]), e)) :
    ∃ t, grIf b (grStates c (fun i j k => grRow p x (tag, [i, j, k]) m f)) = .ok t ∧ (b = false → t = none) ∧ (b = true → Shape4 t c.insts c.periods (c.cont + 1) m ∧
      ∀ i j k n, i < c.insts → j < c.periods → k ≤ c.cont → n < m → tab4 t i j k n = some (p.val x (tag, [i, j, k]) n * f)) := by
  cases b with
  | false => exact ⟨none, by simp [grIf], fun _ => rfl, fun h => by simp at h⟩
  | true =>
    have e := grStates_ok (c := c) (f := fun i j k => grRow p x (tag, [i, j, k]) m f) (g := fun i j k => (List.range m).map (fun e => p.val x (tag, [i, j, k]) e * f))
      (fun i j k hi hj hk => grRow_ok hn f (h rfl i j k hi hj hk))
    refine ⟨some ((List.range c.insts).map (fun i => (List.range c.periods).map (fun j => (List.range (c.cont + 1)).map (fun k =>
      (List.range m).map (fun e => p.val x (tag, [i, j, k]) e * f))))), ?_, fun h => by simp at h, fun _ => ⟨?_, ?_⟩⟩
    · unfold grIf
      rw [if_pos rfl, e]
      rfl
    · intro i j k n
      rw [tab4_range (fun i j k e => p.val x (tag, [i, j, k]) e * f)]
      split <;> simp_all
    · intro i j k n hi hj hk hn
      rw [tab4_range (fun i j k e => p.val x (tag, [i, j, k]) e * f), if_pos ⟨hi, hj, by omega, hn⟩]

/-- **C175**, tables: after every optimal power flow that is set up without an error, all functions return; the tables have an entry for each instance, period, state of the network and
element, `None` is returned for what the network does not have; and the plan they describe is the one GLPK has found. -/
theorem C175_tables {c : GnCase} {p : GProb} {lp : GLp} (hr : gnRun c = .ok (p, lp)) (hbase : c.base ≠ 0) (x : Nat → Rat) :
    ∃ T, Reported c p x T ∧ Shapes c T ∧ GnSame c (gnSol p x) (T.plan c.base) := by
  obtain ⟨hopf, _, hp, hb, _⟩ := gnRun_parts hr
  have hn : (p.cols.map (·.1)).Nodup := ((gBuild_iff p lp).1 hb).colKeys
  have hc : ∀ g ∈ gnCols c, g ∈ p.cols := by rw [hp]; exact fun g hg => hg
  have U := fun i j hi hj => gnHas_units (c := c) (p := p) hc (i := i) (j := j) hi hj
  have N := fun i j k hi hj hk => gnHas_net (c := c) hopf (p := p) hc (i := i) (j := j) (k := k) hi hj hk
  obtain ⟨t1, a1, b1, s1, v1⟩ := grIf_times (c := c) (x := x) hn c.conv.length .thermal c.base (fun i j hi hj e he => ((U i j hi hj).1 e he).1)
  obtain ⟨t2, a2, b2, s2, v2⟩ := grIf_times (c := c) (x := x) hn c.res.length .resGen c.base (fun i j hi hj e he => ((U i j hi hj).2.1 e he).1)
  obtain ⟨t3, a3, b3, s3, v3⟩ := grIf_times (c := c) (x := x) hn c.hydro.length .hydroGen c.base (fun i j hi hj e he => ((U i j hi hj).2.2.1 e he).1)
  obtain ⟨t4, a4, b4, s4, v4⟩ := grIf_times (c := c) (x := x) hn c.pumps.length .pumps c.base (fun i j hi hj e he => (U i j hi hj).2.2.2 e he)
  obtain ⟨t5, a5, b5, s5, v5⟩ := grIf_times (c := c) (x := x) hn c.conv.length .thermalCG 1 (fun i j hi hj e he => ((U i j hi hj).1 e he).2)
  obtain ⟨t6, a6, b6, s6, v6⟩ := grIf_times (c := c) (x := x) hn c.res.length .resCG 1 (fun i j hi hj e he => ((U i j hi hj).2.1 e he).2)
  obtain ⟨t7, a7, b7, s7, v7⟩ := grIf_times (c := c) (x := x) hn c.hydro.length .hydroCG 1 (fun i j hi hj e he => ((U i j hi hj).2.2.1 e he).2)
  obtain ⟨t8, a8, b8, v8⟩ := grIf_states (c := c) (x := x) hn c.opf c.buses.length .angle 1 (fun _ i j k hi hj hk e he => ((N i j k hi hj hk).2 e he).1)
  obtain ⟨t9, a9, b9, v9⟩ := grIf_states (c := c) (x := x) hn (c.opf && c.feas) c.buses.length .lc c.base
    (fun h i j k hi hj hk e he => (((N i j k hi hj hk).2 e he).2 (by rw [Bool.and_eq_true] at h; exact h.2)).1)
  obtain ⟨t10, a10, b10, v10⟩ := grIf_states (c := c) (x := x) hn (c.opf && c.feas) c.buses.length .gc c.base
    (fun h i j k hi hj hk e he => (((N i j k hi hj hk).2 e he).2 (by rw [Bool.and_eq_true] at h; exact h.2)).2)
  obtain ⟨t11, a11, b11, v11⟩ := grIf_states (c := c) (x := x) hn c.opf c.branches.length .flow c.base (fun _ i j k hi hj hk e he => ((N i j k hi hj hk).1 e he).1)
  obtain ⟨t12, a12, b12, v12⟩ := grIf_states (c := c) (x := x) hn (c.opf && c.lossPieces.isSome) c.branches.length .loss c.base
    (fun h i j k hi hj hk e he => ((N i j k hi hj hk).1 e he).2 (by rw [Bool.and_eq_true] at h; intro h0; rw [h0] at h; simp at h))
  have hfe : c.feas = true → (c.opf && c.feas) = true := fun h => by rw [hopf, h]; rfl
  have hlo : c.lossPieces ≠ none → (c.opf && c.lossPieces.isSome) = true := fun h => by rw [hopf]; simpa using Option.isSome_iff_ne_none.2 h
  have cancel : ∀ v : Rat, v * c.base / c.base = v := fun v => mul_div_cancel_right₀ v hbase
  refine ⟨⟨t1, t2, t3, t4, t5, t6, t7, t8, t9, t10, t11, t12⟩, ⟨a1, a2, a3, a4, a5, a6, a7, a8, a9, a10, a11, a12⟩, ?_, ?_⟩
  · refine ⟨⟨s1, s5⟩, ⟨s2, s6⟩, ⟨s3, s7⟩, s4, (v8 hopf).1, (v11 hopf).1, fun h => ⟨(v9 (hfe h)).1, (v10 (hfe h)).1⟩, fun h => (v12 (hlo h)).1, ?_⟩
    refine ⟨fun h => ⟨b1 (by simp [h]), b5 (by simp [h])⟩, fun h => ⟨b2 (by simp [h]), b6 (by simp [h])⟩, fun h => ⟨b3 (by simp [h]), b7 (by simp [h])⟩, fun h => b4 (by simp [h]),
      fun h => ⟨b9 (by simp [h]), b10 (by simp [h])⟩, fun h => b12 (by simp [h])⟩
  · refine ⟨?_, ?_, ?_, ?_, ?_, ?_, ?_, ?_⟩
    · intro i j n hi hj h
      exact ⟨by simp only [GrTables.plan, v1 i j n hi hj h, Option.getD_some, cancel]; rfl, by simp only [GrTables.plan, v5 i j n hi hj h, Option.getD_some, mul_one]; rfl⟩
    · intro i j n hi hj h
      exact ⟨by simp only [GrTables.plan, v2 i j n hi hj h, Option.getD_some, cancel]; rfl, by simp only [GrTables.plan, v6 i j n hi hj h, Option.getD_some, mul_one]; rfl⟩
    · intro i j n hi hj h
      exact ⟨by simp only [GrTables.plan, v3 i j n hi hj h, Option.getD_some, cancel]; rfl, by simp only [GrTables.plan, v7 i j n hi hj h, Option.getD_some, mul_one]; rfl⟩
    · intro i j n hi hj h
      simp only [GrTables.plan, v4 i j n hi hj h, Option.getD_some, cancel]; rfl
    · intro i j k n hi hj hk h
      simp only [GrTables.plan, (v11 hopf).2 i j k n hi hj hk h, Option.getD_some, cancel]; rfl
    · intro hl i j k n hi hj hk h
      simp only [GrTables.plan, (v12 (hlo hl)).2 i j k n hi hj hk h, Option.getD_some, cancel]; rfl
    · intro hf i j k n hi hj hk h
      exact ⟨by simp only [GrTables.plan, (v9 (hfe hf)).2 i j k n hi hj hk h, Option.getD_some, cancel]; rfl,
        by simp only [GrTables.plan, (v10 (hfe hf)).2 i j k n hi hj hk h, Option.getD_some, cancel]; rfl⟩
    · intro i j k n hi hj hk h
      simp only [GrTables.plan, (v8 hopf).2 i j k n hi hj hk h, Option.getD_some, mul_one]; rfl

/-- **C175.** What is reported is a solution: if some plan obeys the rules of the network, the tables that the functions return describe a plan that obeys them - limits, balance of every
bus, flow law, losses -, no plan that obeys them is cheaper, and the reported objective is its cost. -/
theorem C175_reported {c : GnCase} {p : GProb} {lp : GLp} (hr : gnRun c = .ok (p, lp)) (hw : GnWell c) (hbase : c.base ≠ 0) (hh : ∀ j, j < c.periods → 0 ≤ gnHours c j)
    (s0 : GnSol) (h0 : GnRules c s0) (x : Nat → Rat) (hx : GReturned lp x) :
    ∃ T, Reported c p x T ∧ Shapes c T ∧ GnRules c (T.plan c.base) ∧ (∀ s, GnRules c s → gnPlanCost c (T.plan c.base) ≤ gnPlanCost c s) ∧
      lp.cost x = gnPlanCost c (T.plan c.base) := by
  obtain ⟨T, h1, h2, h3⟩ := C175_tables hr hbase x
  obtain ⟨h4, h5⟩ := C151_cheapest_partial hr hw hh s0 h0 x hx
  have e := gnPlanCost_same h3
  refine ⟨T, h1, h2, gnRules_same (fun b hb => (hw.ends b hb).2.2) h3 h4, ?_, ?_⟩
  · intro s hs
    rw [← e]
    exact h5 s hs
  · rw [C151_objective_partial hr, e]

/-- the example of C155, with a base power of 100 MVA -/
def exGn100 : GnCase := ⟨1, 1, exGn.conv, [], [], [], exGn.buses, exGn.branches, 1, [], [1], 0, [2], 100, none, none, true, true⟩

/-- the tables of a concrete run: 4 per unit are 400 MW, and after the contingency the second line carries them -/
theorem C175_witness : okAnd (gnRun exGn100) (fun r =>
    decide ((grThermal exGn100 r.1 (gAt [4, 16, 2, 2, 0, 0, 0, 0, 0, -2, 0, 4, 0, 0, 0, 0, 0, -4])).toOption = some (some [[[400]]])) &&
    decide ((grThermalC exGn100 r.1 (gAt [4, 16, 2, 2, 0, 0, 0, 0, 0, -2, 0, 4, 0, 0, 0, 0, 0, -4])).toOption = some (some [[[16]]])) &&
    decide ((grFlow exGn100 r.1 (gAt [4, 16, 2, 2, 0, 0, 0, 0, 0, -2, 0, 4, 0, 0, 0, 0, 0, -4])).toOption = some (some [[[[200, 200], [0, 400]]]])) &&
    decide ((grHydro exGn100 r.1 (gAt [])).toOption = some none)) = true := by decide +kernel

/-- the hypotheses of C175 are met -/
theorem C175_reported_witness : ∃ p lp, gnRun exGn = .ok (p, lp) ∧ ∀ x, GReturned lp x → ∃ T, Reported exGn p x T ∧ GnRules exGn (T.plan 1) := by
  obtain ⟨p, lp, hr, h⟩ := C155_returned_partial exGn_well (by decide +kernel) exGn_bounds exGn_relaxed exGn_hours
  refine ⟨p, lp, hr, fun x hx => ?_⟩
  obtain ⟨T, h1, _, h2, _⟩ := C175_reported hr exGn_well (by decide +kernel) exGn_hours _ (C155_feasible_partial exGn_relaxed exGn_bounds exGn_hours) x hx
  exact ⟨T, h1, h2⟩

/-! ## C176 -/

/-- an entry of a table with two indices -/
def tab2 (t : List (List Rat)) (v n : Nat) : Option Rat := (t[v]?).bind (fun (r : List Rat) => r[n]?)

theorem tab2_range (f : Nat → Nat → Rat) (a b v n : Nat) : tab2 ((List.range a).map (fun v => (List.range b).map (fun n => f v n))) v n =
    if v < a ∧ n < b then some (f v n) else none := by
  unfold tab2
  by_cases hi : v < a
  · by_cases hj : n < b
    · simp [hi, hj]
    · simp [hi, hj]
  · simp [hi]

/-- the table of the values -/
def IsTab2 (t : List (List Rat)) (a b : Nat) (f : Nat → Nat → Rat) : Prop := ∀ v n, tab2 t v n = if v < a ∧ n < b then some (f v n) else none

theorem grTree_ok {d : GeData} {p : GProb} {x : Nat → Rat} (hn : (p.cols.map (·.1)).Nodup) (tag : GTag) (h : ∀ v, v < d.vectors → ∀ e, e < d.nodes → p.has ((tag, [v]), e)) :
    ∃ t, grTree d p x tag = .ok t ∧ IsTab2 t d.vectors d.nodes (fun v n => p.val x (tag, [v]) n) := by
  have e := mapM_range_ok (fun (v : Nat) => grRow p x (tag, [v]) d.nodes 1) (fun v => (List.range d.nodes).map (fun e => p.val x (tag, [v]) e * 1)) d.vectors
    (fun v hv => grRow_ok hn 1 (h v hv))
  refine ⟨_, e, fun v n => ?_⟩
  rw [tab2_range (fun v e => p.val x (tag, [v]) e * 1)]
  simp only [mul_one]

theorem IsTab2.congr {t : List (List Rat)} {a b : Nat} {f g : Nat → Nat → Rat} (h : IsTab2 t a b f) (e : ∀ v n, v < a → n < b → f v n = g v n) : IsTab2 t a b g := by
  intro v n
  rw [h v n]
  by_cases hc : v < a ∧ n < b
  · rw [if_pos hc, if_pos hc, e v n hc.1 hc.2]
  · rw [if_neg hc, if_neg hc]

/-- **C176.** The functions for the trees return, for every vector and node, the states that the data determine (partial storage: before repetition, total storage: after), and the inputs
and outputs of the data. -/
theorem C176_states {data : List EnPeriod} {fix : Option Nat} {size : EnSize} {t : EnTree} {w : EnWeights} {links : EnLinks}
    (h : enInitialise data fix = .ok (size, t, w, links)) (hpos : ∀ d ∈ data, 0 < d.names) (hunc : ∀ d ∈ data, d.unc = false)
    (hv : 0 < size.vectors) {p : GProb} {lp : GLp} (hr : geRun (geData size w links) = .ok (p, lp)) (win wout : Nat → Nat → Rat) (wght : Nat → Rat)
    (hw : ∀ n, (w.wght[n]?).getD 0 = wght n) (hin : ∀ v n, ((w.win[n]?).bind (fun r => r[v]?)).getD 0 = win v n)
    (hout : ∀ v n, ((w.wout[n]?).bind (fun r => r[v]?)).getD 0 = wout v n) (h0 : ∀ v, win v 0 = wout v 0)
    (soc : Nat → Nat → Nat → Rat) (hs : ∀ v, v < size.vectors → EnFeasible links wght (win v) (wout v) (soc v) ∧
      ∀ n, n < size.nodes → 0 ≤ soc v n 0 ∧ 0 ≤ soc v n 1) (x : Nat → Rat) (hx : GReturned lp x) :
    ∃ P T I O, grTree (geData size w links) p x .part = .ok P ∧ grTree (geData size w links) p x .tot = .ok T ∧
      grTree (geData size w links) p x .inp = .ok I ∧ grTree (geData size w links) p x .outp = .ok O ∧
      IsTab2 P size.vectors size.nodes (fun v n => soc v n 0) ∧ IsTab2 T size.vectors size.nodes (fun v n => soc v n 1) ∧
      IsTab2 I size.vectors size.nodes win ∧ IsTab2 O size.vectors size.nodes wout := by
  obtain ⟨ht, hsum, hnodes⟩ := geTree_of h hpos hunc
  obtain ⟨hp, hb⟩ := geRun_parts ht hr
  have hn : (p.cols.map (·.1)).Nodup := ((gBuild_iff p lp).1 hb).colKeys
  obtain ⟨hfeas, hst⟩ := geReturned h hpos hunc hv hr win wout wght hw hin hout h0 soc hs x hx
  have hio := (C148_same_partial h hpos hunc hr win wout wght hw hin hout h0 x).1 hfeas
  have M := fun v (hv : v < size.vectors) => geCols_mem (d := geData size w links) (rel := []) (v := v) hv
  have hcols : p.cols = geCols (geData size w links) [] := by rw [hp]
  obtain ⟨P, p1, p2⟩ := grTree_ok (d := geData size w links) (x := x) hn .part (fun v hv e he => ⟨_, by rw [hcols]; exact (M v hv).1, by simpa using he⟩)
  obtain ⟨T, t1, t2⟩ := grTree_ok (d := geData size w links) (x := x) hn .tot (fun v hv e he => ⟨_, by rw [hcols]; exact (M v hv).2.1, by simpa using he⟩)
  obtain ⟨I, i1, i2⟩ := grTree_ok (d := geData size w links) (x := x) hn .inp (fun v hv e he => ⟨_, by rw [hcols]; exact (M v hv).2.2.1, by simpa using he⟩)
  obtain ⟨O, o1, o2⟩ := grTree_ok (d := geData size w links) (x := x) hn .outp (fun v hv e he => ⟨_, by rw [hcols]; exact (M v hv).2.2.2, by simpa using he⟩)
  refine ⟨P, T, I, O, p1, t1, i1, o1, p2.congr (fun v n hv hn => (hst v hv n hn).1), t2.congr (fun v n hv hn => (hst v hv n hn).2), ?_, ?_⟩
  · refine i2.congr (fun v n hv hn => ?_)
    obtain ⟨_, _, _, _, e⟩ := hio v hv
    exact (e n hn).1
  · refine o2.congr (fun v n hv hn => ?_)
    obtain ⟨_, _, _, _, e⟩ := hio v hv
    exact (e n hn).2

theorem gRowStart_mem : ∀ (rows : List GRows), (rows.map (·.key)).Nodup → ∀ (g : GRows), g ∈ rows → ∀ a : Nat,
    ∃ s, gRowStart rows g.key = some s ∧ s + g.size ≤ (rows.map (·.size)).sum ∧ ∀ r ∈ g.rows, (a + s + r.off, r) ∈ gNumber rows a := by
  intro rows
  induction rows with
  | nil => intro _ g hg; simp at hg
  | cons h t ih =>
    intro hn g hg a
    rw [List.map_cons, List.nodup_cons] at hn
    rw [List.mem_cons] at hg
    by_cases e : h.key = g.key
    · have : g = h := by
        rcases hg with h1 | h1
        · exact h1
        · exact absurd (e ▸ List.mem_map_of_mem (f := fun q : GRows => q.key) h1) hn.1
      subst this
      refine ⟨0, by simp [gRowStart], by rw [List.map_cons, List.sum_cons]; omega, fun r hr => ?_⟩
      rw [gNumber, List.mem_append]
      exact .inl (List.mem_map.2 ⟨r, hr, by simp⟩)
    · rcases hg with rfl | h1
      · exact absurd rfl e
      obtain ⟨s, h2, h3, h4⟩ := ih hn.2 g h1 (a + h.size)
      refine ⟨s + h.size, by simp [gRowStart, e, h2], by rw [List.map_cons, List.sum_cons]; omega, fun r hr => ?_⟩
      rw [gNumber, List.mem_append]
      refine .inr ?_
      have := h4 r hr
      rwa [show a + h.size + s + r.off = a + (s + h.size) + r.off by omega] at this

/-- **C176.** The duals of the balances: the table has a row for each vector and an entry for each node, 0 for the root, and for every other node the dual value of the row with its balance. -/
theorem C176_duals {data : List EnPeriod} {fix : Option Nat} {size : EnSize} {t : EnTree} {w : EnWeights} {links : EnLinks}
    (h : enInitialise data fix = .ok (size, t, w, links)) (hpos : ∀ d ∈ data, 0 < d.names) (hunc : ∀ d ∈ data, d.unc = false)
    {p : GProb} {lp : GLp} (hr : geRun (geData size w links) = .ok (p, lp)) (y : Nat → Rat) :
    ∃ D f, grDuals (geData size w links) p y = .ok D ∧ IsTab2 D size.vectors size.nodes f ∧ ∀ v, v < size.vectors → f v 0 = 0 ∧
      ∀ n, 1 ≤ n → n < size.nodes → ∃ r row, geBalance (geData size w links) v n = .ok row ∧ (r, row) ∈ gNumber p.rows 0 ∧ f v n = y r := by
  obtain ⟨ht, hsum, hnodes⟩ := geTree_of h hpos hunc
  obtain ⟨hp, hb⟩ := geRun_parts ht hr
  have hn : (p.rows.map (·.key)).Nodup := ((gBuild_iff p lp).1 hb).rowKeys
  have hmem : ∀ v, v < size.vectors → tbGroup (geData size w links) t v ∈ p.rows := by
    intro v hv
    rw [hp]
    exact List.mem_append_left _ (List.mem_map.2 ⟨v, List.mem_range.2 hv, rfl⟩)
  have H := fun v hv => gRowStart_mem p.rows hn (tbGroup (geData size w links) t v) (hmem v hv) 0
  have hs : ∀ v, v < size.vectors → ∃ s, gRowStart p.rows (.tb, [v]) = some s ∧ s + (size.nodes - 1) ≤ (p.rows.map (·.size)).sum ∧
      ∀ r ∈ (tbGroup (geData size w links) t v).rows, (0 + s + r.off, r) ∈ gNumber p.rows 0 := fun v hv => H v hv
  let S : Nat → Nat := fun v => (gRowStart p.rows (.tb, [v])).getD 0
  have hrow : ∀ v, v < size.vectors → grDualRow (geData size w links) p y v = .ok ((List.range size.nodes).map (fun n => if n = 0 then 0 else y (S v + (n - 1)))) := by
    intro v hv
    obtain ⟨s, h1, h2, _⟩ := hs v hv
    unfold grDualRow
    rw [mapM_range_ok (fun (n : Nat) => gDual p y (.tb, [v]) n) (fun n => y (S v + n)) _ (fun n hn => ?_)]
    · simp only [bind, Except.bind, Except.ok.injEq]
      obtain ⟨m, hm⟩ : ∃ m, size.nodes = m + 1 := ⟨size.nodes - 1, by omega⟩
      show 0 :: (List.range (size.nodes - 1)).map _ = _
      rw [hm, Nat.add_sub_cancel, List.range_succ_eq_map, List.map_cons, List.map_map]
      rfl
    · unfold gDual
      have hlt : s + n < (p.rows.map (·.size)).sum := by
        have : n < size.nodes - 1 := hn
        omega
      simp only [h1, hlt, if_true, S, Option.getD_some]
  refine ⟨_, fun v n => if n = 0 then 0 else y (S v + (n - 1)), mapM_range_ok _ _ _ hrow, fun v n => tab2_range _ _ _ _ _, fun v hv => ⟨rfl, fun n h1 h2 => ?_⟩⟩
  obtain ⟨s, e1, e2, e3⟩ := hs v hv
  have hS : S v = s := by simp only [S, e1, Option.getD_some]
  have hm : tbRow t v n ∈ (tbGroup (geData size w links) t v).rows := by
    refine List.mem_map.2 ⟨n, List.mem_range'_1.2 ⟨h1, ?_⟩, rfl⟩
    show n < 1 + (size.nodes - 1)
    omega
  have hm' := e3 _ hm
  have ho : (tbRow t v n).off = n - 1 := rfl
  rw [ho] at hm'
  refine ⟨s + (n - 1), tbRow t v n, ?_, by rwa [Nat.zero_add] at hm', ?_⟩
  · unfold geBalance
    rw [npGet_some (geTree_ll1 ht h1 h2)]
    rfl
  · show (if n = 0 then 0 else y (S v + (n - 1))) = _
    rw [if_neg (by omega), hS]

/-- the hypotheses of C176 are met: the tree of C148, whose tables are determined by the data -/
theorem C176_witness : ∃ p lp, geRun (geData exGeSize (exGeW 1) exGeLinks) = .ok (p, lp) ∧ (∀ x, GReturned lp x → ∃ P T, grTree (geData exGeSize (exGeW 1) exGeLinks) p x .part = .ok P ∧
    grTree (geData exGeSize (exGeW 1) exGeLinks) p x .tot = .ok T ∧ tab2 P 0 3 = some 2 ∧ tab2 T 0 3 = some 10 ∧ tab2 T 0 2 = some 20) ∧
    ∀ y, ∃ D, grDuals (geData exGeSize (exGeW 1) exGeLinks) p y = .ok D ∧ tab2 D 0 0 = some 0 := by
  have h : enInitialise (exGe 1) none = .ok (exGeSize, exGeTree, exGeW 1, exGeLinks) := by decide +kernel
  have hpos : ∀ d ∈ exGe 1, 0 < d.names := by decide +kernel
  have hunc : ∀ d ∈ exGe 1, d.unc = false := by decide +kernel
  have h0 : ∀ v : Nat, (((exGeW 1).win[0]?).bind (fun r => r[v]?)).getD 0 = (((exGeW 1).wout[0]?).bind (fun r => r[v]?)).getD 0 := fun v => rfl
  have hs : ∀ v, v < exGeSize.vectors → EnFeasible exGeLinks (fun n => ((exGeW 1).wght[n]?).getD 0)
      (fun n => (((exGeW 1).win[n]?).bind (fun r => r[v]?)).getD 0) (fun n => (((exGeW 1).wout[n]?).bind (fun r => r[v]?)).getD 0)
      (exGeSoc 1) ∧ ∀ n, n < exGeSize.nodes → 0 ≤ exGeSoc 1 n 0 ∧ 0 ≤ exGeSoc 1 n 1 := by
    intro v hv
    refine ⟨exGe_feasible 1 v hv, ?_⟩
    decide +kernel
  obtain ⟨p, lp, hr⟩ := C148_runs_partial h hpos hunc (by decide)
  refine ⟨p, lp, hr, fun x hx => ?_, fun y => ?_⟩
  · obtain ⟨P, T, _, _, h1, h2, _, _, h3, h4, _⟩ := C176_states h hpos hunc (by decide) hr _ _ _ (fun _ => rfl) (fun _ _ => rfl) (fun _ _ => rfl) h0
      (fun _ => exGeSoc 1) hs x hx
    exact ⟨P, T, h1, h2, (h3 0 3).trans (by decide +kernel), (h4 0 3).trans (by decide +kernel), (h4 0 2).trans (by decide +kernel)⟩
  · obtain ⟨D, f, h1, h2, h3⟩ := C176_duals h hpos hunc hr y
    refine ⟨D, h1, (h2 0 0).trans ?_⟩
    rw [if_pos (by decide), (h3 0 (by decide)).1]

end Pyensys
