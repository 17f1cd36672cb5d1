import Verif.Props.SavedResults

/-!
# C192-C194: profiles, totals on the screen, examples
-/

namespace Pyensys

/-! ## specification -/

/-- a total on the screen and its 24 parts: `g t` is the amount of period `t` -/
structure IsTally (s : SrTally) (periods : Nat) (g : Nat → Rat) : Prop where
  total : s.1 = upTo periods g
  hours : s.2 = (List.range 24).map (fun t => if t < periods then g t else 0)

/-- the value of a column in the row of period `t`, 0 if there is none -/
def rowOf (l : List SrRow) (f : SrRow → Rat) (t : Nat) : Rat := ((l[t]?).map f).getD 0

/-- the totals of an instance are those of its saved rows -/
structure Agrees (periods : Nat) (l : List SrRow) (s : SrTotals) : Prop where
  demand : IsTally s.demand periods (rowOf l (·.demand))
  thermal : IsTally s.thermal periods (rowOf l (·.generation))
  res : IsTally s.res periods (rowOf l (·.res))
  hydro : IsTally s.hydro periods (rowOf l (·.hydropower))
  curtailment : IsTally s.curtailment periods (rowOf l (·.curtailment))
  genCur : IsTally s.genCur periods (rowOf l (·.genCur))

/-! ## proof -/

theorem srInner_ok (f : Nat → Except PyErr Rat) (g h : Nat → Rat) (a : Rat) : ∀ m, m ≤ 24 → (∀ t, t < m → f t = .ok (g t)) →
    (List.range m).foldlM (fun (s : SrTally) (t : Nat) => do
      let v ← f t
      srAdd s t v) (a, (List.range 24).map h) = .ok (a + upTo m g, (List.range 24).map (fun t => if t < m then h t + g t else h t)) := by
  intro m
  induction m with
  | zero => intro _ _; simp [upTo, pure, Except.pure]
  | succ m ih =>
    intro hm hf
    rw [List.range_succ (n := m), List.foldlM_append, ih (by omega) (fun t ht => hf t (by omega))]
    have e0 : srAdd (a + upTo m g, (List.range 24).map (fun t => if t < m then h t + g t else h t)) m (g m) =
        .ok (a + upTo m g + g m, ((List.range 24).map (fun t => if t < m then h t + g t else h t)).set m (h m + g m)) := by
      unfold srAdd
      simp only [List.getElem?_map, List.getElem?_range (show m < 24 by omega), Option.map_some, lt_self_iff_false, if_false]
    simp only [List.foldlM_cons, List.foldlM_nil, hf m (by omega), bind, Except.bind, e0, pure, Except.pure, Except.ok.injEq, Prod.mk.injEq]
    constructor
    · unfold upTo
      rw [List.range_succ (n := m), List.map_append, List.sum_append]
      simp [add_assoc]
    · apply List.ext_getElem?
      intro t
      rw [List.getElem?_set]
      by_cases ht : m = t
      · subst ht
        simp [show m < 24 by omega]
      · rw [if_neg ht]
        by_cases h24 : t < 24
        · simp only [List.getElem?_map, List.getElem?_range h24, Option.map_some, Option.some.injEq]
          by_cases h1 : t < m
          · rw [if_pos h1, if_pos (by omega)]
          · rw [if_neg h1, if_neg (by omega)]
        · rw [List.getElem?_eq_none (by simp; omega), List.getElem?_eq_none (by simp; omega)]

theorem srOuter_ok {α : Type} (f : α → Nat → Except PyErr Rat) (g : α → Nat → Rat) (m : Nat) (hm : m ≤ 24) : ∀ (l : List α) (h : Nat → Rat) (a : Rat), (∀ e ∈ l, ∀ t, t < m → f e t = .ok (g e t)) →
    l.foldlM (fun (s : SrTally) (e : α) => (List.range m).foldlM (fun (s : SrTally) (t : Nat) => do
      let v ← f e t
      srAdd s t v) s) (a, (List.range 24).map h) =
    .ok (a + (l.map (fun e => upTo m (g e))).sum, (List.range 24).map (fun t => if t < m then h t + (l.map (fun e => g e t)).sum else h t)) := by
  intro l
  induction l with
  | nil => intro h a _; simp [pure, Except.pure]
  | cons e l ih =>
    intro h a hf
    rw [List.foldlM_cons, srInner_ok (f e) (g e) h a m hm (hf e (by simp))]
    show List.foldlM _ _ l = _
    rw [ih _ _ (fun e' he' => hf e' (by simp [he']))]
    simp only [List.map_cons, List.sum_cons, Except.ok.injEq, Prod.mk.injEq]
    refine ⟨by ring, List.map_congr_left (fun t _ => ?_)⟩
    by_cases ht : t < m
    · simp only [ht, if_true]; ring
    · simp only [ht, if_false]

theorem sum_upTo {α : Type} (l : List α) (m : Nat) (g : α → Nat → Rat) : (l.map (fun e => upTo m (g e))).sum = upTo m (fun t => (l.map (fun e => g e t)).sum) := by
  induction l with
  | nil => simp [upTo_const]
  | cons e l ih =>
    simp only [List.map_cons, List.sum_cons, ih]
    rw [upTo_add]

theorem srTally_ok {α : Type} {l : List α} {m : Nat} {f : α → Nat → Except PyErr Rat} (g : α → Nat → Rat) (hm : m ≤ 24) (hf : ∀ e ∈ l, ∀ t, t < m → f e t = .ok (g e t))
    {r : Nat → Rat} (hr : ∀ t, t < m → r t = (l.map (fun e => g e t)).sum) : ∃ s, srTally l m f = .ok s ∧ IsTally s m r := by
  unfold srTally
  have e0 : List.replicate 24 (0 : Rat) = (List.range 24).map (fun _ => 0) := by rw [List.map_const', List.length_range]
  rw [e0, srOuter_ok f g m hm l _ _ hf]
  refine ⟨_, rfl, ⟨?_, ?_⟩⟩
  · show 0 + _ = _
    rw [zero_add, sum_upTo]
    exact upTo_congr (fun t ht => (hr t ht).symm)
  · dsimp only
    refine List.map_congr_left (fun t _ => ?_)
    by_cases ht : t < m
    · rw [if_pos ht, if_pos ht, zero_add, hr t ht]
    · rw [if_neg ht, if_neg ht]

theorem srPairs_sum' (a b : Nat) (f : Nat → Nat → Rat) : ((srPairs a b).map (fun q => f q.2 q.1)).sum = upTo b (fun k => upTo a (f k)) := by
  rw [srPairs_sum a b (fun n k => f k n)]
  show ((List.range a).map (fun n => upTo b (fun k => f k n))).sum = _
  rw [sum_upTo]
  rfl

/-- **C194.** The totals on the screen are those of the saved rows: after a run of the network model with curtailment and at most 24 periods, every total that is printed for an instance is
the sum of the column over its rows, and the list by hours holds the column itself. -/
theorem C194_totals_partial {c : GnCase} {p : GProb} {lp : GLp} (hr : gnRun c = .ok (p, lp)) (hk : SrKnown c) (hf : c.feas = true) (hm : c.periods ≤ 24) (x : Nat → Rat)
    (junk : Nat → Nat → Nat → Nat → Rat) :
    ∃ rows tots, srSave c p x junk = .ok rows ∧ srPrint c p x junk = .ok tots ∧ tots.length = rows.length ∧
      ∀ (i : Nat) (l : List SrRow) (s : SrTotals), rows[i]? = some l → tots[i]? = some s → Agrees c.periods l s := by
  obtain ⟨ho, _, hp, hb, _⟩ := gnRun_parts hr
  have hn := ((gBuild_iff p lp).1 hb).colKeys
  have hc : ∀ g ∈ gnCols c, g ∈ p.cols := by rw [hp]; exact fun g hg => hg
  obtain ⟨rows, h1, h2, h3⟩ := C192_network_partial hr hk x junk
  obtain ⟨T, g1, hT⟩ := srRead_ok hn hc x
  obtain ⟨L, g2, _⟩ := srLosses_ok hT hk junk
  have key : ∀ i, i < c.insts → ∃ s, srPrintOne c T i = .ok s ∧ ∀ l, rows[i]? = some l → Agrees c.periods l s := by
    intro i hi
    obtain ⟨l, hl⟩ : ∃ l, rows[i]? = some l := ⟨_, List.getElem?_eq_getElem (by rw [h2]; exact hi)⟩
    obtain ⟨hlen, hrow⟩ := h3 i l hl
    have hat : ∀ t, t < c.periods → ∃ r, l[t]? = some r ∧ SrIs c (gnSol p x) (p.val x (.lcs, [i, t]) 0) i t r := by
      intro t ht
      have : t < l.length := by rw [hlen]; exact ht
      exact ⟨l[t], List.getElem?_eq_getElem this, hrow t _ (List.getElem?_eq_getElem this)⟩
    have units : ∀ (n : Nat) (tab : Option (List (List (List Rat)))) (v : Nat → Nat → Nat → Rat) (f : SrRow → Rat),
        (∀ j e, j < c.periods → e < n → tab3 tab i j e = some (v i j e * c.base)) → (∀ t r, SrIs c (gnSol p x) (p.val x (.lcs, [i, t]) 0) i t r → f r = c.base * upTo n (v i t)) →
        ∃ s, srTally (List.range n) c.periods (fun e t => srAt3 tab i t e) = .ok s ∧ IsTally s c.periods (rowOf l f) := by
      intro n tab v f h4 h5
      refine srTally_ok (fun e t => v i t e * c.base) hm (fun e he t ht => srAt3_of (h4 t e ht (List.mem_range.1 he))) (fun t ht => ?_)
      obtain ⟨r, hr1, hr2⟩ := hat t ht
      unfold rowOf
      rw [hr1, Option.map_some, Option.getD_some, h5 t r hr2, ← upTo_mul]
      rfl
    obtain ⟨s1, a1, b1⟩ := units c.conv.length T.thermal (gnSol p x).conv (·.generation) (fun j e hj he => hT.thermal i j e hi hj he) (fun t r h => h.generation)
    obtain ⟨s2, a2, b2⟩ := units c.res.length T.res (gnSol p x).res (·.res) (fun j e hj he => hT.res i j e hi hj he) (fun t r h => h.res)
    obtain ⟨s3, a3, b3⟩ := units c.hydro.length T.hydro (gnSol p x).hydro (·.hydropower) (fun j e hj he => hT.hydro i j e hi hj he) (fun t r h => h.hydropower)
    have nodes : ∀ (tab : Option (List (List (List (List Rat))))) (v : Nat → Nat → Nat → Nat → Rat) (f : SrRow → Rat) (F : Nat × Nat → Nat → Except PyErr Rat),
        (∀ q t, F q t = srAt4 tab i t q.2 q.1) →
        (∀ j k e, j < c.periods → k < c.cont + 1 → e < c.buses.length → tab4 tab i j k e = some (v i j k e * c.base)) →
        (∀ t r, SrIs c (gnSol p x) (p.val x (.lcs, [i, t]) 0) i t r → f r = c.base * upTo (c.cont + 1) (fun k => upTo c.buses.length (v i t k))) →
        ∃ s, srTally (srPairs c.buses.length (c.cont + 1)) c.periods F = .ok s ∧ IsTally s c.periods (rowOf l f) := by
      intro tab v f F hF h4 h5
      refine srTally_ok (fun q t => v i t q.2 q.1 * c.base) hm (fun q hq t ht => ?_) (fun t ht => ?_)
      · rw [hF]
        exact srAt4_of (h4 t q.2 q.1 ht (mem_srPairs.1 hq).2 (mem_srPairs.1 hq).1)
      · obtain ⟨r, hr1, hr2⟩ := hat t ht
        unfold rowOf
        rw [hr1, Option.map_some, Option.getD_some, h5 t r hr2, srPairs_sum' c.buses.length (c.cont + 1) (fun k n => v i t k n * c.base),
          upTo_congr (fun k _ => (upTo_mul c.buses.length (v i t k) c.base).trans (mul_comm _ _)), upTo_mul]
    obtain ⟨s4, a4, b4⟩ := nodes T.lc (gnSol p x).lc (·.curtailment) (fun q t => srPrintLc c T i t q) (fun q t => by unfold srPrintLc; rw [if_neg (by simp [hf]), if_pos ho])
      (fun j k e hj hk he => (hT.nodes ho hf i j k e hi hj hk he).1) (fun t r h => by rw [h.curtailment, if_pos hf, if_pos ho])
    obtain ⟨s5, a5, b5⟩ := nodes T.gc (gnSol p x).gc (·.genCur) (fun q t => srAt4 T.gc i t q.2 q.1) (fun q t => rfl)
      (fun j k e hj hk he => (hT.nodes ho hf i j k e hi hj hk he).2) (fun t r h => by rw [h.genCur, if_pos ⟨ho, hf⟩])
    obtain ⟨s6, a6, b6⟩ : ∃ s, srTally (c.buses.filter (fun b => !(b.type == 4))) c.periods (fun b t => .ok (srDemand c i t b)) = .ok s ∧
        IsTally s c.periods (rowOf l (·.demand)) := by
      refine srTally_ok (fun b t => srDemand c i t b) hm (fun _ _ _ _ => rfl) (fun t ht => ?_)
      obtain ⟨r, hr1, hr2⟩ := hat t ht
      unfold rowOf
      rw [hr1, Option.map_some, Option.getD_some, hr2.demand, ← srDemands_eq]
      rfl
    refine ⟨⟨s6, s1, s2, s3, s4, s5⟩, ?_, fun l' hl' => ?_⟩
    · unfold srPrintOne
      simp only [a1, a2, a3, a4, a5, a6, bind, Except.bind]
    · rw [hl, Option.some.injEq] at hl'
      subst hl'
      exact ⟨b6, b1, b2, b3, b4, b5⟩
  obtain ⟨tots, k1, k2, k3⟩ := mapM_range_exists (srPrintOne c T) (fun i s => ∀ l, rows[i]? = some l → Agrees c.periods l s) c.insts key
  refine ⟨rows, tots, h1, ?_, by rw [k2, h2], fun i l s hl hs => k3 i s hs l hl⟩
  unfold srPrint
  simp only [g1, g2, k1, bind, Except.bind]

theorem srTally_error {α : Type} {l : List α} {m : Nat} {f : α → Nat → Except PyErr Rat} {e : PyErr} (hl : l ≠ []) (hm : 0 < m) (hf : ∀ a ∈ l, f a 0 = .error e) :
    srTally l m f = .error e := by
  unfold srTally
  obtain ⟨a, l', rfl⟩ := List.exists_cons_of_ne_nil hl
  obtain ⟨n, rfl⟩ : ∃ n, m = n + 1 := ⟨m - 1, by omega⟩
  rw [List.foldlM_cons, List.range_succ_eq_map, List.foldlM_cons]
  simp only [hf a (by simp), bind, Except.bind]

/-- **C194 fails** without curtailment: there is no table of the curtailed generation, and the totals are not printed. -/
theorem C194_feasibility_violated {c : GnCase} {p : GProb} {lp : GLp} (hr : gnRun c = .ok (p, lp)) (hk : SrKnown c) (hf : c.feas = false) (hm : c.periods ≤ 24)
    (ht : 0 < c.insts ∧ 0 < c.periods) (hb : c.buses ≠ []) (x : Nat → Rat) (junk : Nat → Nat → Nat → Nat → Rat) : srPrint c p x junk = .error .type := by
  obtain ⟨ho, _, hp, hbd, _⟩ := gnRun_parts hr
  obtain ⟨T, g1, hT⟩ := srRead_ok ((gBuild_iff p lp).1 hbd).colKeys (show ∀ g ∈ gnCols c, g ∈ p.cols by rw [hp]; exact fun g hg => hg) x
  obtain ⟨L, g2, _⟩ := srLosses_ok hT hk junk
  unfold srPrint
  simp only [g1, g2, bind, Except.bind]
  refine mapM_range_error _ _ .type ht.1 ?_
  have units : ∀ (n : Nat) (tab : Option (List (List (List Rat)))) (v : Nat → Nat → Nat → Rat), (∀ j e, j < c.periods → e < n → tab3 tab 0 j e = some (v 0 j e * c.base)) →
      ∃ s, srTally (List.range n) c.periods (fun e t => srAt3 tab 0 t e) = .ok s := by
    intro n tab v h4
    obtain ⟨s, hs, _⟩ := srTally_ok (l := List.range n) (m := c.periods) (f := fun e t => srAt3 tab 0 t e) (fun e t => v 0 t e * c.base) hm
      (fun e he t ht => srAt3_of (h4 t e ht (List.mem_range.1 he))) (fun t ht => rfl)
    exact ⟨s, hs⟩
  obtain ⟨s1, a1⟩ := units c.conv.length T.thermal (gnSol p x).conv (fun j e hj he => hT.thermal 0 j e ht.1 hj he)
  obtain ⟨s2, a2⟩ := units c.res.length T.res (gnSol p x).res (fun j e hj he => hT.res 0 j e ht.1 hj he)
  obtain ⟨s3, a3⟩ := units c.hydro.length T.hydro (gnSol p x).hydro (fun j e hj he => hT.hydro 0 j e ht.1 hj he)
  obtain ⟨s4, a4, _⟩ := srTally_ok (l := c.buses.filter (fun b => !(b.type == 4))) (m := c.periods) (f := fun b t => .ok (srDemand c 0 t b)) (fun b t => srDemand c 0 t b) hm
    (fun _ _ _ _ => rfl) (fun t ht => rfl)
  obtain ⟨s5, a5, _⟩ := srTally_ok (l := srPairs c.buses.length (c.cont + 1)) (m := c.periods) (f := fun q t => srPrintLc c T 0 t q) (fun _ _ => 0) hm
    (fun q _ t _ => by unfold srPrintLc; rw [if_pos hf]) (fun t ht => rfl)
  have hne : srPairs c.buses.length (c.cont + 1) ≠ [] :=
    List.ne_nil_of_mem (mem_srPairs.2 (show ((0, 0) : Nat × Nat).1 < _ ∧ _ from ⟨List.length_pos_of_ne_nil hb, by simp⟩))
  have a6 : srTally (srPairs c.buses.length (c.cont + 1)) c.periods (fun q t => srAt4 T.gc 0 t q.2 q.1) = .error .type := by
    refine srTally_error hne ht.2 (fun q _ => ?_)
    rw [(hT.noNodes (by simp [hf])).2]
    rfl
  unfold srPrintOne
  simp only [a1, a2, a3, a4, a5, a6, bind, Except.bind]

/-- the list of the hours has 24 places -/
theorem srInner_error (f : Nat → Except PyErr Rat) (g : Nat → Rat) (a : Rat) (h : Nat → Rat) (m : Nat) (hm : 24 < m) (hf : ∀ t, t < m → f t = .ok (g t)) :
    (List.range m).foldlM (fun (s : SrTally) (t : Nat) => do
      let v ← f t
      srAdd s t v) (a, (List.range 24).map h) = .error .index := by
  obtain ⟨n, rfl⟩ : ∃ n, m = 24 + (n + 1) := ⟨m - 25, by omega⟩
  rw [List.range_add, List.foldlM_append, srInner_ok f g h a 24 (le_refl _) (fun t ht => hf t (by omega))]
  show List.foldlM _ _ _ = _
  rw [List.range_succ_eq_map (n := n), List.map_cons, List.foldlM_cons]
  simp only [hf 24 (by omega), bind, Except.bind, Nat.add_zero]
  unfold srAdd
  rw [List.getElem?_eq_none (by simp)]

/-- **C194 fails** with more than 24 periods: the totals by hours have 24 places. -/
theorem C194_periods_violated {c : GnCase} {p : GProb} {lp : GLp} (hr : gnRun c = .ok (p, lp)) (hk : SrKnown c) (hm : 24 < c.periods)
    (ht : 0 < c.insts) (b : GnBus) (hb : b ∈ c.buses) (hb4 : b.type ≠ 4) (x : Nat → Rat) (junk : Nat → Nat → Nat → Nat → Rat) : srPrint c p x junk = .error .index := by
  obtain ⟨ho, _, hp, hbd, _⟩ := gnRun_parts hr
  obtain ⟨T, g1, hT⟩ := srRead_ok ((gBuild_iff p lp).1 hbd).colKeys (show ∀ g ∈ gnCols c, g ∈ p.cols by rw [hp]; exact fun g hg => hg) x
  obtain ⟨L, g2, _⟩ := srLosses_ok hT hk junk
  unfold srPrint
  simp only [g1, g2, bind, Except.bind]
  refine mapM_range_error _ _ .index ht ?_
  have hne : c.buses.filter (fun b => !(b.type == 4)) ≠ [] := List.ne_nil_of_mem (List.mem_filter.2 ⟨hb, by simpa using hb4⟩)
  have a4 : srTally (c.buses.filter (fun b => !(b.type == 4))) c.periods (fun b t => .ok (srDemand c 0 t b)) = .error .index := by
    unfold srTally
    obtain ⟨b', l', hl⟩ := List.exists_cons_of_ne_nil hne
    have e0 : List.replicate 24 (0 : Rat) = (List.range 24).map (fun _ => 0) := by rw [List.map_const', List.length_range]
    rw [hl, List.foldlM_cons, e0, srInner_error _ (fun t => srDemand c 0 t b') _ _ _ hm (fun t _ => rfl)]
    rfl
  unfold srPrintOne
  simp only [a4, bind, Except.bind]

/-- **C192.** The saved profiles: row `s` holds the entries `s * periods, ...` of the profile (renewables: times base power), and it can be saved exactly if the profile is long enough. -/
theorem C192_profiles_partial (n periods : Nat) (profile : List Rat) (f : Rat) (t : List (List Rat)) : srProfiles n periods profile f = .ok t ↔
    IsTab2 t n periods (fun s j => (profile.getD (s * periods + j) 0) * f) ∧ t.length = n ∧ (∀ r ∈ t, r.length = periods) ∧ (n * periods ≤ profile.length) := by
  have key : ∀ n, srEntry profile f n = if n < profile.length then .ok (profile.getD n 0 * f) else .error .index := by
    intro n
    unfold srEntry
    by_cases h : n < profile.length
    · rw [if_pos h, List.getD_eq_getElem?_getD, List.getElem?_eq_getElem h]
      rfl
    · rw [if_neg h, List.getElem?_eq_none (by omega)]
  unfold srProfiles
  simp only [key]
  constructor
  · intro h
    rw [mapM_range_iff] at h
    obtain ⟨h1, h2⟩ := h
    have hrow : ∀ s r, t[s]? = some r → r.length = periods ∧ ∀ j v, r[j]? = some v → s * periods + j < profile.length ∧ v = profile.getD (s * periods + j) 0 * f := by
      intro s r hs
      obtain ⟨r', hr', this⟩ := h2 s (by rw [← h1]; exact (List.getElem?_eq_some_iff.1 hs).1)
      rw [hs, Option.some.injEq] at hr'
      subst hr'
      rw [mapM_range_iff] at this
      refine ⟨this.1, fun j v hj => ?_⟩
      obtain ⟨v', hv', this⟩ := this.2 j (by rw [← this.1]; exact (List.getElem?_eq_some_iff.1 hj).1)
      rw [hj, Option.some.injEq] at hv'
      subst hv'
      split at this
      · rename_i hlt
        rw [Except.ok.injEq] at this
        exact ⟨hlt, this.symm⟩
      · simp at this
    refine ⟨?_, h1, ?_, ?_⟩
    · intro s j
      unfold tab2
      by_cases hs : s < n
      · have hs' : s < t.length := by omega
        obtain ⟨h3, h4⟩ := hrow s _ (List.getElem?_eq_getElem hs')
        rw [List.getElem?_eq_getElem hs', Option.bind_some]
        by_cases hj : j < periods
        · have hj' : j < t[s].length := by omega
          rw [if_pos ⟨hs, hj⟩, List.getElem?_eq_getElem hj', (h4 j _ (List.getElem?_eq_getElem hj')).2]
        · rw [if_neg (fun h => hj h.2), List.getElem?_eq_none (by omega)]
      · rw [if_neg (fun h => hs h.1), List.getElem?_eq_none (by omega)]
        rfl
    · intro r hr
      obtain ⟨s, hs⟩ := List.mem_iff_getElem?.1 hr
      exact (hrow s r hs).1
    · by_cases hz : n = 0 ∨ periods = 0
      · rcases hz with rfl | rfl <;> simp
      · rw [not_or] at hz
        have hs' : n - 1 < t.length := by omega
        obtain ⟨h3, h4⟩ := hrow (n - 1) _ (List.getElem?_eq_getElem hs')
        have hj' : periods - 1 < t[n - 1].length := by omega
        have := (h4 (periods - 1) _ (List.getElem?_eq_getElem hj')).1
        obtain ⟨m, rfl⟩ : ∃ m, n = m + 1 := ⟨n - 1, by omega⟩
        rw [Nat.add_sub_cancel] at this
        rw [Nat.add_mul, one_mul]
        omega
  · rintro ⟨h1, h2, h3, h4⟩
    rw [mapM_range_iff]
    refine ⟨h2, fun s hs' => ⟨t[s]'(by omega), List.getElem?_eq_getElem _, ?_⟩⟩
    rw [mapM_range_iff]
    have hlen := h3 (t[s]'(by omega)) (List.getElem_mem _)
    refine ⟨hlen, fun j hj' => ⟨(t[s]'(by omega))[j]'(by omega), List.getElem?_eq_getElem _, ?_⟩⟩
    have hlt : s * periods + j < profile.length := by
      have : (s + 1) * periods ≤ n * periods := Nat.mul_le_mul_right _ hs'
      rw [Nat.add_mul, one_mul] at this
      omega
    rw [if_pos hlt]
    have := h1 s j
    unfold tab2 at this
    rw [List.getElem?_eq_getElem (by omega), Option.bind_some, List.getElem?_eq_getElem (by omega), if_pos ⟨hs', hj'⟩, Option.some.injEq] at this
    rw [this]

end Pyensys
