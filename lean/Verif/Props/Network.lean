import Verif.Model.Network
import Mathlib.Algebra.BigOperators.Group.List.Basic
import Mathlib.Algebra.Order.Field.Rat
import Mathlib.Algebra.Order.BigOperators.Group.List
import Mathlib.Data.Rat.Cast.Order
import Mathlib.Tactic.FieldSimp
import Mathlib.Tactic.Ring
import Mathlib.Tactic.Positivity
import Mathlib.Tactic.NormNum
import Mathlib.Tactic.Linarith

/-! # C38 - C41, C62 - C64: updates of the network -/

namespace Pyensys

section
variable {K : Type} [Field K] [LinearOrder K] [IsStrictOrderedRing K] {s3 : K}

set_option linter.unusedSectionVars false

/-! ## C39: one line upgrade -/

/-- **C39.** Upgrading line `i` (0-based for a single line) by `c` MW succeeds when the line and the
voltage of its bus exist; it puts the line in service, raises the current limit by `c / (V √3)` kA
(V in kV) and scales resistance and reactance so that r·I and x·I stay constant; the from-bus is
kept, and every other line, the loads and the voltages are untouched. -/
theorem C39_single_line (hs : 0 < s3) (net : Net K) (i : Int) (c : Rat) (name : String) (value : Option K)
    (l : Line K) (v : K) (hl : net.lines i = some l) (hv : net.vn l.fromBus = some v) (hvpos : 0 < v)
    (hI : 0 < l.maxI) (hc : 0 ≤ c) :
    ∃ net' l', applyParam s3 net ⟨"line", name, .single i, value, .num c⟩ = .ok net' ∧
      net'.lines i = some l' ∧ l'.inService = true ∧ l'.fromBus = l.fromBus ∧
      l'.maxI = l.maxI + (c : K) / (v * s3) ∧ l'.r * l'.maxI = l.r * l.maxI ∧ l'.x * l'.maxI = l.x * l.maxI ∧
      (∀ p, p ≠ i → net'.lines p = net.lines p) ∧ net'.loads = net.loads ∧ net'.vn = net.vn ∧
      net'.converged = net.converged ∧ net'.cost = net.cost := by
  have hcur : currentOf s3 (c : K) v = (c : K) / (v * s3) := by
    unfold currentOf
    field_simp
    ring
  have hcK : (0 : K) ≤ (c : K) := by exact_mod_cast hc
  have hnew : 0 < l.maxI + (c : K) / (v * s3) := by positivity
  refine ⟨{ net with lines := fun p => if p = i then some (l.upgrade s3 (c : K) v) else net.lines p },
    l.upgrade s3 (c : K) v, ?_, ?_, rfl, rfl, ?_, ?_, ?_, ?_, ?_⟩
  · unfold applyParam upgradeLine
    simp only [hl, hv]
    rfl
  · simp
  · unfold Line.upgrade
    simp only
    rw [hcur]
  · unfold Line.upgrade
    simp only
    rw [hcur]
    field_simp
  · unfold Line.upgrade
    simp only
    rw [hcur]
    field_simp
  · intro p hp
    simp [hp]
  · simp

/-- **C39.** A cluster investment upgrades each listed line number minus one, one after the other,
with its own capacity: the one-element cluster `[i + 1]` is the single investment in line `i`. -/
theorem C39_cluster_step (net : Net K) (p : Int) (ps : List Int) (c : Rat) (cs : List Rat) (name : String)
    (value : Option K) :
    applyParam s3 net ⟨"line", name, .cluster (p :: ps), value, .list (c :: cs)⟩ =
      (applyParam s3 net ⟨"line", name, .single (p - 1), value, .num c⟩).bind
        (fun net' => applyParam s3 net' ⟨"line", name, .cluster ps, value, .list cs⟩) := by
  unfold applyParam
  simp only [upgradeCluster, bind, Except.bind]
  rfl

/-- **C39.** For any table other than `line` (and `load`) a status update raises. -/
theorem C39_other_tables_raise (net : Net K) (i : Int) (p : Param K) (h1 : p.ctype ≠ "line")
    (h2 : p.ctype ≠ "load") (h3 : p.pos = .single i) : ∃ e, applyParam s3 net p = .error e := by
  unfold applyParam
  rw [if_neg h2, h3]
  simp only
  cases p.cap with
  | num c =>
    simp only [upgradeLine]
    split
    · exact ⟨_, rfl⟩
    · split
      · exact ⟨_, rfl⟩
      · rw [if_neg h1]; exact ⟨_, rfl⟩
  | list l => exact ⟨_, rfl⟩
  | text => exact ⟨_, rfl⟩

/-! ## C40: several upgrades -/

/-- total capacity added to line `p` by a list of upgrades (line, MW) -/
def totalCap (ups : List (Int × Rat)) (p : Int) : Rat := ((ups.filter (fun u => u.1 = p)).map (·.2)).sum

/-- the parameter of an upgrade of line `u.1` by `u.2` MW -/
def lineParam (u : Int × Rat) : Param K := ⟨"line", "in_service", .single u.1, none, .num u.2⟩

/-- every upgraded line exists, at a bus with positive voltage and with a positive current limit;
capacities are not negative -/
def Upgradable (net : Net K) (ups : List (Int × Rat)) : Prop :=
  ∀ u ∈ ups, 0 ≤ u.2 ∧ ∃ l v, net.lines u.1 = some l ∧ net.vn l.fromBus = some v ∧ 0 < v ∧ 0 < l.maxI

/-- the network with the given total capacities added -/
def addedCaps (s3 : K) (net : Net K) (ups : List (Int × Rat)) (net' : Net K) : Prop :=
  net'.loads = net.loads ∧ net'.vn = net.vn ∧ net'.converged = net.converged ∧ net'.cost = net.cost ∧
  (∀ p, (∀ u ∈ ups, u.1 ≠ p) → net'.lines p = net.lines p) ∧
  ∀ p l v, (∃ u ∈ ups, u.1 = p) → net.lines p = some l → net.vn l.fromBus = some v →
    net'.lines p = some
      { inService := true
        fromBus := l.fromBus
        maxI := l.maxI + (totalCap ups p : K) / (v * s3)
        r := l.r * l.maxI / (l.maxI + (totalCap ups p : K) / (v * s3))
        x := l.x * l.maxI / (l.maxI + (totalCap ups p : K) / (v * s3)) }

theorem totalCap_cons (u : Int × Rat) (us : List (Int × Rat)) (p : Int) :
    totalCap (u :: us) p = (if u.1 = p then u.2 else 0) + totalCap us p := by
  unfold totalCap
  rw [List.filter_cons]
  by_cases h : u.1 = p <;> simp [h]

theorem totalCap_nonneg {ups : List (Int × Rat)} (h : ∀ u ∈ ups, 0 ≤ u.2) (p : Int) : 0 ≤ totalCap ups p := by
  unfold totalCap
  apply List.sum_nonneg
  intro x hx
  obtain ⟨u, hu, rfl⟩ := List.mem_map.1 hx
  exact h u (List.mem_of_mem_filter hu)

/-- **C40.** The effect of any list of line upgrades in closed form: each line gets the total of the
capacities given for it. -/
theorem C40_closed_form (hs : 0 < s3) (ups : List (Int × Rat)) : ∀ (net : Net K), Upgradable net ups →
    ∃ net', (ups.map lineParam).foldlM (applyParam s3) net = .ok net' ∧ addedCaps s3 net ups net' := by
  induction ups with
  | nil =>
    intro net _
    refine ⟨net, rfl, rfl, rfl, rfl, rfl, fun _ _ => rfl, ?_⟩
    rintro p l v ⟨u, hu, _⟩
    cases hu
  | cons u us ih =>
    intro net hup
    obtain ⟨hc, l, v, hl, hv, hvpos, hI⟩ := hup u List.mem_cons_self
    obtain ⟨net1, l1, e1, e2, e3, e4, e5, e6, e7, e8, e9, e10, e11, e12⟩ :=
      C39_single_line hs net u.1 u.2 "in_service" none l v hl hv hvpos hI hc
    have hcK : (0 : K) ≤ (u.2 : K) := by exact_mod_cast hc
    have hI1 : 0 < l1.maxI := by rw [e5]; positivity
    have hup1 : Upgradable net1 us := by
      intro w hw
      obtain ⟨h1, l', v', f1, f2, f3, f4⟩ := hup w (List.mem_cons_of_mem _ hw)
      refine ⟨h1, ?_⟩
      by_cases hwu : w.1 = u.1
      · refine ⟨l1, v, by rw [hwu]; exact e2, by rw [e10, e4]; exact hv, hvpos, hI1⟩
      · exact ⟨l', v', by rw [e8 _ hwu]; exact f1, by rw [e10]; exact f2, f3, f4⟩
    obtain ⟨net2, g1, g2, g3, g4, g5, g6, g7⟩ := ih net1 hup1
    refine ⟨net2, ?_, by rw [g2, e9], by rw [g3, e10], by rw [g4, e11], by rw [g5, e12], ?_, ?_⟩
    · rw [List.map_cons, List.foldlM_cons]
      have : applyParam s3 net (lineParam u) = .ok net1 := e1
      rw [this]
      exact g1
    · intro p hp
      rw [g6 p (fun w hw => hp w (List.mem_cons_of_mem _ hw)), e8 p (hp u List.mem_cons_self).symm]
    · intro p lp vp hpe hlp hvp
      have hnn : (0 : K) ≤ (totalCap us p : K) := by
        exact_mod_cast totalCap_nonneg (fun w hw => (hup w (List.mem_cons_of_mem _ hw)).1) p
      by_cases hpu : u.1 = p
      · subst hpu
        rw [hl] at hlp
        injection hlp with hlp
        subst hlp
        rw [hv] at hvp
        injection hvp with hvp
        subst hvp
        have hr1 : l1.r = l.r * l.maxI / l1.maxI := by
          rw [eq_div_iff (ne_of_gt hI1)]; exact e6
        have hx1 : l1.x = l.x * l.maxI / l1.maxI := by
          rw [eq_div_iff (ne_of_gt hI1)]; exact e7
        rw [totalCap_cons, if_pos rfl]
        push_cast
        have hsum : l1.maxI + (totalCap us u.1 : K) / (v * s3) =
            l.maxI + ((u.2 : K) + (totalCap us u.1 : K)) / (v * s3) := by
          rw [e5]; ring
        by_cases hin : ∃ w ∈ us, w.1 = u.1
        · rw [g7 u.1 l1 v hin e2 (by rw [e10, e4]; exact hv), hsum]
          congr 2
          · rw [hr1]
            rw [div_mul_cancel₀ _ (ne_of_gt hI1)]
          · rw [hx1]
            rw [div_mul_cancel₀ _ (ne_of_gt hI1)]
        · have h0 : totalCap us u.1 = 0 := by
            unfold totalCap
            rw [List.filter_eq_nil_iff.2]
            · rfl
            · intro w hw
              simp only [decide_eq_true_eq]
              exact fun h => hin ⟨w, hw, h⟩
          rw [g6 u.1 (fun w hw h => hin ⟨w, hw, h⟩), e2]
          rw [h0] at hsum ⊢
          rw [← hsum]
          cases l1
          simp only at e3 e4 hr1 hx1 hI1
          subst e3
          simp only [Rat.cast_zero, zero_div, add_zero]
          rw [← hr1, ← hx1, e4]
      · have hin : ∃ w ∈ us, w.1 = p := by
          obtain ⟨w, hw, rfl⟩ := hpe
          rcases List.mem_cons.1 hw with rfl | hw
          · exact absurd rfl hpu
          · exact ⟨w, hw, rfl⟩
        rw [g7 p lp vp hin (by rw [e8 p (Ne.symm hpu)]; exact hlp) (by rw [e10]; exact hvp),
          totalCap_cons, if_neg hpu, zero_add]

/-- **C40.** Order independence: any permutation of the upgrades gives the same network. -/
theorem C40_order_independent (hs : 0 < s3) (net : Net K) (ups ups' : List (Int × Rat))
    (hp : ups.Perm ups') (h : Upgradable net ups) :
    ∃ net', (ups.map lineParam).foldlM (applyParam s3) net = .ok net' ∧
      (ups'.map lineParam).foldlM (applyParam s3) net = .ok net' := by
  have h' : Upgradable net ups' := fun u hu => h u (hp.mem_iff.2 hu)
  obtain ⟨n1, a1, b1, b2, b3, b4, b5, b6⟩ := C40_closed_form hs ups net h
  obtain ⟨n2, a2, c1, c2, c3, c4, c5, c6⟩ := C40_closed_form hs ups' net h'
  have htot : ∀ p, totalCap ups p = totalCap ups' p := fun p => by
    unfold totalCap
    exact ((hp.filter _).map _).sum_eq
  have hlines : n1.lines = n2.lines := by
    funext p
    by_cases hin : ∃ u ∈ ups, u.1 = p
    · obtain ⟨u, hu, rfl⟩ := hin
      obtain ⟨_, l, v, hl, hv, _⟩ := h u hu
      rw [b6 u.1 l v ⟨u, hu, rfl⟩ hl hv, c6 u.1 l v ⟨u, hp.mem_iff.1 hu, rfl⟩ hl hv, htot]
    · rw [b5 p (fun u hu e => hin ⟨u, hu, e⟩), c5 p (fun u hu e => hin ⟨u, hp.mem_iff.2 hu, e⟩)]
  have : n1 = n2 := by
    cases n1
    cases n2
    simp only at hlines b1 b2 b3 b4 c1 c2 c3 c4
    rw [hlines, b1, b2, b3, b4, c1, c2, c3, c4]
  exact ⟨n1, a1, by rw [this]; exact a2⟩

/-- **C40.** Two upgrades of the same line add their capacities. -/
theorem C40_same_line_adds (hs : 0 < s3) (net : Net K) (i : Int) (a b : Rat)
    (h : Upgradable net [(i, a), (i, b)]) :
    ([(i, a), (i, b)].map lineParam).foldlM (applyParam s3) net =
      ([(i, a + b)].map lineParam).foldlM (applyParam s3) net := by
  have hab : Upgradable net [(i, a + b)] := by
    intro u hu
    rw [List.mem_singleton] at hu
    subst hu
    obtain ⟨h1, l, v, e⟩ := h (i, a) (by simp)
    obtain ⟨h2, _⟩ := h (i, b) (by simp)
    exact ⟨add_nonneg h1 h2, l, v, e⟩
  obtain ⟨n1, a1, b1, b2, b3, b4, b5, b6⟩ := C40_closed_form hs _ net h
  obtain ⟨n2, a2, c1, c2, c3, c4, c5, c6⟩ := C40_closed_form hs _ net hab
  have htot : totalCap [(i, a), (i, b)] i = totalCap [(i, a + b)] i := by
    simp [totalCap]
  have hlines : n1.lines = n2.lines := by
    funext p
    by_cases hin : p = i
    · subst hin
      obtain ⟨_, l, v, hl, hv, _⟩ := h (p, a) (by simp)
      rw [b6 p l v ⟨(p, a), by simp, rfl⟩ hl hv, c6 p l v ⟨(p, a + b), by simp, rfl⟩ hl hv, htot]
    · rw [b5 p (by intro u hu; simp at hu; rcases hu with rfl | rfl <;> exact Ne.symm hin),
        c5 p (by intro u hu; simp at hu; subst hu; exact Ne.symm hin)]
  have : n1 = n2 := by
    cases n1
    cases n2
    simp only at hlines b1 b2 b3 b4 c1 c2 c3 c4
    rw [hlines, b1, b2, b3, b4, c1, c2, c3, c4]
  rw [a1, a2, this]

/-! ## C41: loads -/

/-- the load with one column replaced -/
def Load.put (l : Load K) (name : String) (value : Option K) : Load K :=
  ⟨l.bus, fun n => if n = name then value else l.vals n⟩

/-- the load with the given active and reactive power -/
def Load.withPQ (l : Load K) (p q : K) : Load K :=
  ⟨l.bus, fun n => if n = "p_mw" then some p else if n = "q_mvar" then some q else l.vals n⟩

/-- **C41.** A load update raises IndexError exactly if no load is connected to the bus. -/
theorem C41_index_error (net : Net K) (b : Int) (name : String) (value : Option K) (cap : Cap) :
    applyParam s3 net ⟨"load", name, .single b, value, cap⟩ = .error .index ↔
      ∀ e ∈ net.loads, e.2.bus ≠ b := by
  unfold applyParam
  simp only
  cases hf : net.loads.find? (fun e => e.2.bus = b) with
  | none =>
    simp only [if_true, true_iff]
    intro e he
    simpa using List.find?_eq_none.1 hf e he
  | some e =>
    simp only [if_true, reduceCtorEq, false_iff]
    intro h
    have h1 := List.find?_some hf
    exact h e (List.mem_of_find?_eq_some hf) (by simpa using h1)

/-- **C41.** Otherwise it sets the named column of the first load connected to that bus and changes
nothing else (load labels distinct). -/
theorem C41_one_load (net : Net K) (b : Int) (name : String) (value : Option K) (cap : Cap)
    (pre post : List (Int × Load K)) (e : Int × Load K) (hl : net.loads = pre ++ e :: post)
    (hpre : ∀ x ∈ pre, x.2.bus ≠ b) (he : e.2.bus = b) (hd : (net.loads.map (·.1)).Nodup) :
    ∃ net', applyParam s3 net ⟨"load", name, .single b, value, cap⟩ = .ok net' ∧
      net'.loads = pre ++ (e.1, e.2.put name value) :: post ∧
      net'.lines = net.lines ∧ net'.vn = net.vn ∧ net'.converged = net.converged ∧ net'.cost = net.cost := by
  have hf : net.loads.find? (fun e => e.2.bus = b) = some e := by
    rw [hl, List.find?_append, List.find?_eq_none.2 (by intro x hx; simpa using hpre x hx),
      Option.none_or, List.find?_cons_of_pos (by simpa using he)]
  refine ⟨{ net with loads := setLoad e.1 name value net.loads }, ?_, ?_, rfl, rfl, rfl, rfl⟩
  · unfold applyParam
    simp only [hf, if_true]
  · simp only [setLoad]
    rw [hl, List.map_append, List.map_cons, if_pos rfl]
    rw [hl, List.map_append, List.map_cons, List.nodup_append, List.nodup_cons] at hd
    obtain ⟨_, ⟨hnot, _⟩, hdis⟩ := hd
    congr 1
    · conv_rhs => rw [← List.map_id pre]
      apply List.map_congr_left
      intro x hx
      rw [if_neg]
      · rfl
      · exact hdis _ (List.mem_map_of_mem hx) _ List.mem_cons_self
    · congr 1
      conv_rhs => rw [← List.map_id post]
      apply List.map_congr_left
      intro x hx
      rw [if_neg]
      · rfl
      · intro h
        exact hnot (h ▸ List.mem_map_of_mem hx)

/-! ## C38: updates start from the original network -/

/-- The networks a manager can hold after any number of calls: successful updates (with or without
re-initialisation), updates that raised half-way (leaving anything), and OPF runs. -/
inductive Reached (s3 : K) (init : Net K) : Net K → Prop
  | start : Reached s3 init init
  | update {net net' : Net K} (ps : List (Param K)) (b : Bool) :
      Reached s3 init net → updateMultiple s3 init net ps b = .ok net' → Reached s3 init net'
  | raised {net : Net K} (ps : List (Param K)) (b : Bool) (e : PyErr) (left : Net K) :
      Reached s3 init net → updateMultiple s3 init net ps b = .error e → Reached s3 init left
  | opf {net : Net K} (solver : Net K → Option (Bool × K)) :
      Reached s3 init net → Reached s3 init (runOpf solver net)

/-- **C38.** After any history an update with re-initialisation gives what it gives on the original
network. -/
theorem C38_history_independent (init net : Net K) (ps : List (Param K)) (_h : Reached s3 init net) :
    updateMultiple s3 init net ps = updateMultiple s3 init init ps := by
  unfold updateMultiple
  simp

/-- **C38.** Repeating a call gives the same network. -/
theorem C38_repeat (init net net' : Net K) (ps : List (Param K)) (h : updateMultiple s3 init net ps = .ok net') :
    updateMultiple s3 init net' ps = .ok net' := by
  rw [← h]
  unfold updateMultiple
  simp

/-- **C38.** Without re-initialisation updates accumulate: repeating the upgrade of a line raises its
limit a second time. -/
theorem C38_needs_initialise (hs : 0 < s3) (init net : Net K) (i : Int) (c : Rat) (hc : 0 < c)
    (hup : Upgradable net [(i, c)]) :
    ∃ n1 n2 l1 l2, updateMultiple s3 init net [lineParam (i, c)] false = .ok n1 ∧
      updateMultiple s3 init n1 [lineParam (i, c)] false = .ok n2 ∧
      n1.lines i = some l1 ∧ n2.lines i = some l2 ∧ l1.maxI < l2.maxI := by
  obtain ⟨_, l, v, hl, hv, hvp, hI⟩ := hup (i, c) (by simp)
  obtain ⟨n1, l1, e1, e2, _, e4, e5, _, _, _, _, e10, _⟩ :=
    C39_single_line hs net i c "in_service" none l v hl hv hvp hI hc.le
  have hcK : (0 : K) < (c : K) := by exact_mod_cast hc
  have hI1 : 0 < l1.maxI := by rw [e5]; positivity
  obtain ⟨n2, l2, f1, f2, _, _, f5, _⟩ :=
    C39_single_line hs n1 i c "in_service" none l1 v e2 (by rw [e10, e4]; exact hv) hvp hI1 hc.le
  refine ⟨n1, n2, l1, l2, ?_, ?_, e2, f2, ?_⟩
  · unfold updateMultiple
    rw [List.foldlM_cons]
    have : applyParam s3 net (lineParam (i, c)) = .ok n1 := e1
    simp only [Bool.false_eq_true, if_false, this]
    rfl
  · unfold updateMultiple
    rw [List.foldlM_cons]
    have : applyParam s3 n1 (lineParam (i, c)) = .ok n2 := f1
    simp only [Bool.false_eq_true, if_false, this]
    rfl
  · rw [f5]
    have : 0 < (c : K) / (v * s3) := by positivity
    linarith

/-! ## C62: the network in which an OPF is run -/

/-- the loads of the network with the values of the given rows -/
def withLoads (rows : List (BusRow K)) (loads : List (Int × Load K)) : List (Int × Load K) :=
  loads.map (fun e => match rows.find? (fun r => r.bus = e.2.bus) with
    | none => e
    | some r => (e.1, e.2.withPQ r.p r.q))

theorem mem_split_bus {loads : List (Int × Load K)} {b : Int} (h : ∃ e ∈ loads, e.2.bus = b)  :
    ∃ pre e post, loads = pre ++ e :: post ∧ (∀ x ∈ pre, x.2.bus ≠ b) ∧ e.2.bus = b := by
  induction loads with
  | nil => obtain ⟨e, he, _⟩ := h; cases he
  | cons a t ih =>
    by_cases ha : a.2.bus = b
    · exact ⟨[], a, t, rfl, by simp, ha⟩
    · obtain ⟨e, he, hb⟩ := h
      have : ∃ e ∈ t, e.2.bus = b := by
        rcases List.mem_cons.1 he with rfl | he
        · exact absurd hb ha
        · exact ⟨e, he, hb⟩
      obtain ⟨pre, e, post, h1, h2, h3⟩ := ih this
      refine ⟨a :: pre, e, post, by rw [h1]; rfl, ?_, h3⟩
      intro x hx
      rcases List.mem_cons.1 hx with rfl | hx
      · exact ha
      · exact h2 x hx

theorem setLoad_keys (label : Int) (name : String) (value : Option K) (loads : List (Int × Load K)) :
    (setLoad label name value loads).map (fun e => (e.1, e.2.bus)) = loads.map (fun e => (e.1, e.2.bus)) := by
  unfold setLoad
  rw [List.map_map]
  apply List.map_congr_left
  intro e _
  simp only [Function.comp]
  split <;> rfl

/-- one column of the loads at bus `b` replaced -/
def putBus (b : Int) (name : String) (value : Option K) (loads : List (Int × Load K)) : List (Int × Load K) :=
  loads.map (fun e => if e.2.bus = b then (e.1, e.2.put name value) else e)

/-- active and reactive power of the loads at bus `r.bus` replaced -/
def pqBus (r : BusRow K) (loads : List (Int × Load K)) : List (Int × Load K) :=
  loads.map (fun e => if e.2.bus = r.bus then (e.1, e.2.withPQ r.p r.q) else e)

theorem apply_load (net : Net K) (b : Int) (name : String) (value : Option K) (cap : Cap)
    (hd : (net.loads.map (·.1)).Nodup) (hb : (net.loads.map (·.2.bus)).Nodup)
    (he : ∃ e ∈ net.loads, e.2.bus = b) :
    applyParam s3 net ⟨"load", name, .single b, value, cap⟩ = .ok { net with loads := putBus b name value net.loads } := by
  obtain ⟨pre, e, post, h1, h2, h3⟩ := mem_split_bus he
  obtain ⟨net', a1, a2, a3, a4, a5, a6⟩ := C41_one_load (s3 := s3) net b name value cap pre post e h1 h2 h3 hd
  rw [a1]
  congr 1
  cases net'
  simp only at a2 a3 a4 a5 a6
  subst a3 a4 a5 a6
  congr 1
  rw [a2]
  unfold putBus
  rw [h1, List.map_append, List.map_cons, if_pos h3]
  rw [h1, List.map_append, List.map_cons, List.nodup_append, List.nodup_cons] at hb
  obtain ⟨_, ⟨hnot, _⟩, _⟩ := hb
  congr 1
  · symm
    conv_rhs => rw [← List.map_id pre]
    apply List.map_congr_left
    intro x hx
    rw [if_neg (h2 x hx)]
    rfl
  · congr 1
    symm
    conv_rhs => rw [← List.map_id post]
    apply List.map_congr_left
    intro x hx
    rw [if_neg]
    · rfl
    · intro h
      exact hnot (by rw [h3, ← h]; exact List.mem_map_of_mem hx)

theorem withLoads_cons (r : BusRow K) (rs : List (BusRow K)) (hr : r.bus ∉ rs.map (·.bus))
    (loads : List (Int × Load K)) :
    withLoads (r :: rs) loads = withLoads rs (pqBus r loads) := by
  unfold withLoads pqBus
  rw [List.map_map]
  apply List.map_congr_left
  intro e _
  simp only [Function.comp]
  by_cases h : e.2.bus = r.bus
  · have hn : rs.find? (fun x => x.bus = e.2.bus) = none := by
      apply List.find?_eq_none.2
      intro x hx
      simp only [decide_eq_true_eq]
      intro hxe
      exact hr (by rw [← h, ← hxe]; exact List.mem_map_of_mem hx)
    rw [List.find?_cons_of_pos (by simp [h])]
    simp only [if_pos h]
    have hb : (e.2.withPQ r.p r.q).bus = e.2.bus := rfl
    simp only [hb, hn]
  · rw [List.find?_cons_of_neg (by simpa using Ne.symm h)]
    simp only [if_neg h]

theorem busParams_fold (rows : List (BusRow K)) : ∀ (net : Net K), (rows.map (·.bus)).Nodup →
    (net.loads.map (·.1)).Nodup → (net.loads.map (·.2.bus)).Nodup →
    (∀ r ∈ rows, ∃ e ∈ net.loads, e.2.bus = r.bus) →
    (busParams rows).foldlM (applyParam s3) net = .ok { net with loads := withLoads rows net.loads } := by
  induction rows with
  | nil =>
    intro net _ _ _ _
    simp [busParams, withLoads, pure, Except.pure]
  | cons r rs ih =>
    intro net hnd hd hb hex
    rw [List.map_cons, List.nodup_cons] at hnd
    have e1 := apply_load (s3 := s3) net r.bus "p_mw" (some r.p) .text hd hb (hex r List.mem_cons_self)
    generalize hn1 : ({ net with loads := putBus r.bus "p_mw" (some r.p) net.loads } : Net K) = n1 at e1
    have hk1 : n1.loads.map (·.1) = net.loads.map (·.1) := by
      rw [← hn1]
      simp only [putBus]
      rw [List.map_map]
      apply List.map_congr_left
      intro e _
      simp only [Function.comp]
      split <;> rfl
    have hb1 : n1.loads.map (·.2.bus) = net.loads.map (·.2.bus) := by
      rw [← hn1]
      simp only [putBus]
      rw [List.map_map]
      apply List.map_congr_left
      intro e _
      simp only [Function.comp]
      split <;> rfl
    have ex1 : ∀ b, (∃ e ∈ net.loads, e.2.bus = b) ↔ ∃ e ∈ n1.loads, e.2.bus = b := by
      intro b
      have : b ∈ net.loads.map (·.2.bus) ↔ b ∈ n1.loads.map (·.2.bus) := by rw [hb1]
      simpa [List.mem_map] using this
    have e2 := apply_load (s3 := s3) n1 r.bus "q_mvar" (some r.q) .text (hk1 ▸ hd) (hb1 ▸ hb)
      ((ex1 _).1 (hex r List.mem_cons_self))
    generalize hn2 : ({ n1 with loads := putBus r.bus "q_mvar" (some r.q) n1.loads } : Net K) = n2 at e2
    have hk2 : n2.loads.map (·.1) = n1.loads.map (·.1) := by
      rw [← hn2]
      simp only [putBus]
      rw [List.map_map]
      apply List.map_congr_left
      intro e _
      simp only [Function.comp]
      split <;> rfl
    have hb2 : n2.loads.map (·.2.bus) = n1.loads.map (·.2.bus) := by
      rw [← hn2]
      simp only [putBus]
      rw [List.map_map]
      apply List.map_congr_left
      intro e _
      simp only [Function.comp]
      split <;> rfl
    have ex2 : ∀ b, (∃ e ∈ n1.loads, e.2.bus = b) ↔ ∃ e ∈ n2.loads, e.2.bus = b := by
      intro b
      have : b ∈ n1.loads.map (·.2.bus) ↔ b ∈ n2.loads.map (·.2.bus) := by rw [hb2]
      simpa [List.mem_map] using this
    have e3 := ih n2 hnd.2 (hk2 ▸ hk1 ▸ hd) (hb2 ▸ hb1 ▸ hb)
      (fun x hx => (ex2 _).1 ((ex1 _).1 (hex x (List.mem_cons_of_mem _ hx))))
    have hsplit : busParams (r :: rs) = ⟨"load", "p_mw", .single r.bus, some r.p, .text⟩ ::
        ⟨"load", "q_mvar", .single r.bus, some r.q, .text⟩ :: busParams rs := rfl
    rw [hsplit, List.foldlM_cons, e1]
    simp only [bind, Except.bind]
    rw [List.foldlM_cons, e2]
    simp only [bind, Except.bind]
    rw [e3]
    have hl : n2.loads = pqBus r net.loads := by
      rw [← hn2, ← hn1]
      simp only [putBus, pqBus, List.map_map]
      apply List.map_congr_left
      intro e _
      simp only [Function.comp]
      by_cases h : e.2.bus = r.bus
      · simp only [if_pos h, Load.put, Load.withPQ]
        congr 2
        funext n
        by_cases h1 : n = "q_mvar"
        · subst h1; simp
        · simp [h1]
      · simp only [if_neg h]
    rw [withLoads_cons r rs hnd.1, ← hl, ← hn2, ← hn1]

/-- an investment in the lines given by a single line number or by a cluster, as upgrades (line, MW) -/
def upgradesOf (v : BinVar) : List (Int × Rat) :=
  match v.position, v.capacity with
  | .single i, .num c => [(i, c)]
  | .cluster l, .list cs => (l.map (· - 1)).zip cs
  | _, _ => []

/-- a well-formed line investment: one capacity per line -/
def LineInvestment (v : BinVar) : Prop :=
  v.elementType = "line" ∧ ((∃ i c, v.position = .single i ∧ v.capacity = .num c) ∨
    ∃ l cs, v.position = .cluster l ∧ v.capacity = .list cs ∧ l.length = cs.length)

theorem upgradeCluster_eq (l : List Int) : ∀ (cs : List Rat), l.length = cs.length → ∀ (net : Net K),
    upgradeCluster s3 "line" l cs net =
      (((l.map (· - 1)).zip cs).map lineParam).foldlM (applyParam s3) net := by
  induction l with
  | nil => intro cs _ net; rfl
  | cons p ps ih =>
    intro cs h net
    cases cs with
    | nil => simp at h
    | cons c cs =>
      simp only [List.length_cons, Nat.add_right_cancel_iff] at h
      simp only [upgradeCluster, List.map_cons, List.zip_cons_cons, List.foldlM_cons]
      have e : applyParam s3 net (lineParam (p - 1, c)) = upgradeLine s3 "line" (p - 1) (c : K) net := rfl
      rw [e]
      simp only [bind, Except.bind]
      cases upgradeLine s3 "line" (p - 1) (c : K) net with
      | error e => rfl
      | ok n => exact ih cs h n

theorem applyStatus_eq (v : BinVar) (h : LineInvestment v) (net : Net K) :
    applyParam s3 net (statusParam v) = ((upgradesOf v).map lineParam).foldlM (applyParam s3) net := by
  obtain ⟨ht, ⟨i, c, hp, hc⟩ | ⟨l, cs, hp, hc, hlen⟩⟩ := h
  · unfold upgradesOf
    simp only [hp, hc, List.map_cons, List.map_nil, List.foldlM_cons, List.foldlM_nil]
    have : applyParam s3 net (statusParam v) = applyParam s3 net (lineParam (i, c)) := by
      unfold applyParam statusParam lineParam
      simp only [ht, hp, hc]
    rw [this]
    cases applyParam s3 net (lineParam (i, c)) <;> rfl
  · unfold upgradesOf
    simp only [hp, hc]
    rw [← upgradeCluster_eq l cs hlen net]
    unfold applyParam statusParam
    simp only [ht, hp, hc]
    rfl

theorem statuses_fold (vs : List BinVar) : (∀ v ∈ vs, LineInvestment v) → ∀ (net : Net K),
    (vs.map statusParam).foldlM (applyParam s3) net =
      ((vs.flatMap upgradesOf).map lineParam).foldlM (applyParam s3) net := by
  induction vs with
  | nil => intro _ net; rfl
  | cons v vs ih =>
    intro h net
    rw [List.map_cons, List.foldlM_cons, List.flatMap_cons, List.map_append, List.foldlM_append,
      applyStatus_eq v (h v List.mem_cons_self) net]
    simp only [bind, Except.bind]
    cases ((upgradesOf v).map lineParam).foldlM (applyParam s3) net with
    | error e => rfl
    | ok n => exact ih (fun w hw => h w (List.mem_cons_of_mem _ hw)) n

/-- **C62.** Whatever the manager held before, the OPF at a node is run in the original network plus
the total capacities of the finished interventions plus the demands of the node: every line has its
original data and exactly the capacity given to it by `active`; every load has the values of the
node's row for its bus, or its original ones. -/
theorem C62_opf_network (hs : 0 < s3) (init net : Net K) (active : List BinVar) (rows : List (BusRow K))
    (hact : ∀ v ∈ active, LineInvestment v) (hup : Upgradable init (active.flatMap upgradesOf))
    (hrows : (rows.map (·.bus)).Nodup) (hlab : (init.loads.map (·.1)).Nodup)
    (hbus : (init.loads.map (·.2.bus)).Nodup) (hex : ∀ r ∈ rows, ∃ e ∈ init.loads, e.2.bus = r.bus) :
    ∃ net', opfNetwork s3 init net active (some (rows, [])) = .ok net' ∧
      addedCaps s3 { init with loads := withLoads rows init.loads } (active.flatMap upgradesOf) net' := by
  obtain ⟨n1, a1, b1, b2, b3, b4, b5, b6⟩ := C40_closed_form hs _ init hup
  refine ⟨{ n1 with loads := withLoads rows n1.loads }, ?_, ?_, b2, b3, b4, b5, b6⟩
  · unfold opfNetwork updateMultiple
    simp only [if_true]
    rw [statuses_fold active hact init, a1]
    simp only [bind, Except.bind, flexParams, List.flatMap_nil, List.append_nil, Bool.false_eq_true, if_false]
    exact busParams_fold rows n1 hrows (by rw [b1]; exact hlab) (by rw [b1]; exact hbus) (by rw [b1]; exact hex)
  · simp only [b1]

/-! ## C63: flexible units -/

/-- **C63 is violated.** As soon as a node has data for a flexible unit, preparing the OPF raises:
the parameters of static generators and of their costs are treated as line upgrades. -/
theorem C63_violated (init net : Net K) (active : List BinVar) (rows : List (BusRow K)) (f : FlexRow K)
    (fs : List (FlexRow K)) (nv : String × K) (nvs : List (String × K)) (hf : f.sgenVals = nv :: nvs) :
    ∃ e, opfNetwork s3 init net active (some (rows, f :: fs)) = .error e := by
  unfold opfNetwork
  simp only [bind, Except.bind]
  cases updateMultiple s3 init net (active.map statusParam) with
  | error e => exact ⟨e, rfl⟩
  | ok n =>
    simp only [updateMultiple, Bool.false_eq_true, if_false, List.foldlM_append]
    cases (busParams rows).foldlM (applyParam s3) n with
    | error e => exact ⟨e, rfl⟩
    | ok n2 =>
      refine ⟨.type, ?_⟩
      have : flexParams (f :: fs) = ⟨"sgen", nv.1, .single f.sgen, some nv.2, .text⟩ ::
          ((nvs.map (fun nv => ⟨"sgen", nv.1, .single f.sgen, some nv.2, .text⟩) ++
            f.costVals.map (fun nv => ⟨"poly_cost", nv.1, .single f.costIndex, some nv.2, .text⟩)) ++
              flexParams fs) := by
        unfold flexParams
        rw [List.flatMap_cons, hf]
        rfl
      simp only [bind, Except.bind]
      rw [this, List.foldlM_cons]
      rfl

/-! ## C64: a failing OPF counts as infeasible -/

/-- **C64.** In the non-anticipative solver an OPF whose solver raises is reported as infeasible,
whatever the network held before (a freshly read network has not converged). -/
theorem C64_raising_opf_infeasible (init net net' : Net K) (active : List BinVar)
    (data : Option (List (BusRow K) × List (FlexRow K))) (solver : Net K → Option (Bool × K))
    (hinit : init.converged = false) (h : opfNetwork s3 init net active data = .ok net')
    (hraise : solver net' = none) : (runOpf solver net').converged = false := by
  have hone : ∀ (p : Param K) (n n' : Net K), applyParam s3 n p = .ok n' → n'.converged = n.converged := by
    have hline : ∀ (t : String) (i : Int) (c : K) (n n' : Net K), upgradeLine s3 t i c n = .ok n' →
        n'.converged = n.converged := by
      intro t i c n n' h
      unfold upgradeLine at h
      split at h
      · cases h
      · split at h
        · cases h
        · split at h
          · injection h with h; rw [← h]
          · cases h
    have hcl : ∀ (t : String) (l : List Int) (cs : List Rat) (n n' : Net K),
        upgradeCluster s3 t l cs n = .ok n' → n'.converged = n.converged := by
      intro t l
      induction l with
      | nil => intro cs n n' h; injection h with h; rw [h]
      | cons a l ih =>
        intro cs n n' h
        cases cs with
        | nil =>
          simp only [upgradeCluster, bind, Except.bind] at h
          split at h <;> cases h
        | cons c cs =>
          simp only [upgradeCluster, bind, Except.bind] at h
          split at h
          · cases h
          · rename_i n1 h1
            rw [ih cs n1 n' h, hline _ _ _ _ _ h1]
    intro p n n' h
    unfold applyParam at h
    split at h
    · split at h
      · split at h
        · cases h
        · injection h with h; rw [← h]
      · cases h
    · split at h
      · split at h
        · exact hline _ _ _ _ _ h
        · cases h
      · split at h
        · exact hcl _ _ _ _ _ h
        · split at h
          · injection h with h; rw [h]
          · cases h
  have hfold : ∀ (ps : List (Param K)) (n n' : Net K), ps.foldlM (applyParam s3) n = .ok n' →
      n'.converged = n.converged := by
    intro ps
    induction ps with
    | nil => intro n n' h; injection h with h; rw [h]
    | cons p ps ih =>
      intro n n' h
      rw [List.foldlM_cons] at h
      simp only [bind, Except.bind] at h
      split at h
      · cases h
      · rename_i n1 h1
        rw [ih n1 n' h, hone _ _ _ h1]
  have hconv : net'.converged = init.converged := by
    unfold opfNetwork updateMultiple at h
    simp only [bind, Except.bind, if_true] at h
    split at h
    · cases h
    · rename_i n1 h1
      cases data with
      | none =>
        injection h with h
        rw [← h]
        exact hfold _ _ _ h1
      | some d =>
        simp only [Bool.false_eq_true, if_false] at h
        rw [hfold _ _ _ h, hfold _ _ _ h1]
  unfold runOpf
  rw [hraise]
  simp only
  rw [hconv, hinit]

/-- **C64.** An OPF whose solver returns is reported with exactly the verdict and the cost it returned, on an
otherwise unchanged network. -/
theorem C64_returned_verdict (net : Net K) (solver : Net K → Option (Bool × K)) (c : Bool) (cost : K)
    (h : solver net = some (c, cost)) :
    (runOpf solver net).converged = c ∧ (runOpf solver net).cost = cost ∧ (runOpf solver net).lines = net.lines ∧
      (runOpf solver net).loads = net.loads ∧ (runOpf solver net).vn = net.vn := by
  unfold runOpf
  rw [h]
  exact ⟨rfl, rfl, rfl, rfl, rfl⟩

/-- **C64 is violated in the anticipative (base) solver:** without new interventions the network is
not reloaded, so a raising OPF inherits the verdict and the cost of the previous one. -/
theorem C64_base_violated (init net : Net K) (candidate : List BinVar) (solver : Net K → Option (Bool × K))
    (hraise : ∀ n, solver n = none) :
    ∃ net', baseStatus s3 init net candidate [] = .ok net' ∧ (runOpf solver net').converged = net.converged ∧
      (runOpf solver net').cost = net.cost := by
  refine ⟨net, rfl, ?_, ?_⟩ <;> simp [runOpf, hraise]

/-- **C62 is violated in the anticipative (base) solver:** the candidate interventions of earlier
levels are lost, because the network is reloaded before the new ones are entered. -/
theorem C62_base_violated (init net net' : Net K) (candidate new : List BinVar) (hn : new ≠ [])
    (h : baseStatus s3 init net candidate new = .ok net') :
    updateMultiple s3 init init (new.map statusParam) = .ok net' := by
  unfold baseStatus at h
  rw [if_neg hn] at h
  simp only [bind, Except.bind] at h
  split at h
  · cases h
  · unfold updateMultiple at h ⊢
    simpa using h

end

/-! ## Concrete instances -/

/-- two lines, two loads, one voltage level; `s3` is taken to be 2 -/
def netEx : Net Rat :=
  { lines := fun i => if i = 0 then some ⟨false, 0, 1, 2, 3⟩ else if i = 1 then some ⟨true, 1, 4, 5, 6⟩ else none
    loads := [(0, ⟨0, fun _ => none⟩), (1, ⟨7, fun _ => some 1⟩)]
    vn := fun b => if b = 0 then some 10 else if b = 1 then some 20 else none
    converged := false
    cost := 0 }

/-- the hypotheses of C39 and C40 hold for the example; the same line occurs twice -/
example : Upgradable netEx [(0, 5), (1, 3), (0, 2)] := by
  intro u hu
  simp only [List.mem_cons, List.not_mem_nil, or_false] at hu
  rcases hu with rfl | rfl | rfl
  · exact ⟨by norm_num, ⟨false, 0, 1, 2, 3⟩, 10, rfl, rfl, by norm_num, by norm_num⟩
  · exact ⟨by norm_num, ⟨true, 1, 4, 5, 6⟩, 20, rfl, rfl, by norm_num, by norm_num⟩
  · exact ⟨by norm_num, ⟨false, 0, 1, 2, 3⟩, 10, rfl, rfl, by norm_num, by norm_num⟩

/-- the hypotheses of C62 hold for the example: a cluster of both lines and a demand at bus 7 -/
example : ∃ net', opfNetwork (2 : Rat) netEx netEx
    [{ elementType := "line", position := .cluster [1, 2], capacity := .list [5, 3] },
     { elementType := "line", position := .single 0, capacity := .num 2 }] (some ([⟨7, 8, 9⟩], [])) = .ok net' ∧
    addedCaps 2 { netEx with loads := withLoads [⟨7, 8, 9⟩] netEx.loads } [(0, 5), (1, 3), (0, 2)] net' := by
  apply C62_opf_network (s3 := (2 : Rat)) (by norm_num)
  · intro v hv
    simp only [List.mem_cons, List.not_mem_nil, or_false] at hv
    rcases hv with rfl | rfl
    · exact ⟨rfl, Or.inr ⟨[1, 2], [5, 3], rfl, rfl, rfl⟩⟩
    · exact ⟨rfl, Or.inl ⟨0, 2, rfl, rfl⟩⟩
  · intro u hu
    have hu : u ∈ [((0 : Int), (5 : Rat)), (1, 3), (0, 2)] := hu
    simp only [List.mem_cons, List.not_mem_nil, or_false] at hu
    rcases hu with rfl | rfl | rfl
    · exact ⟨by norm_num, ⟨false, 0, 1, 2, 3⟩, 10, rfl, rfl, by norm_num, by norm_num⟩
    · exact ⟨by norm_num, ⟨true, 1, 4, 5, 6⟩, 20, rfl, rfl, by norm_num, by norm_num⟩
    · exact ⟨by norm_num, ⟨false, 0, 1, 2, 3⟩, 10, rfl, rfl, by norm_num, by norm_num⟩
  · simp
  · simp [netEx]
  · simp [netEx]
  · intro r hr
    simp only [List.mem_singleton] at hr
    subst hr
    exact ⟨(1, ⟨7, fun _ => some 1⟩), by simp [netEx], rfl⟩

end Pyensys
