import Verif.Model.Verification
import Verif.Props.ScreeningLP

/-!
# Verification of clusters and the planning command (C56, C90–C93)
-/

namespace Pyensys

/-! ## specification -/

/-- the number of the line that branch `b` is: the lines are the branches without a tap, in order -/
def lineNo (taps : List Rat) (b : Nat) : Nat := (taps.take b).countP (fun t => decide (t = 0))

/-- the number of the transformer that branch `b` is -/
def trafoNo (taps : List Rat) (b : Nat) : Nat := (taps.take b).countP (fun t => decide (t ≠ 0))

/-- the network's tables agree with the taps of the case: one line for each branch without a tap, one transformer for
each other branch, and every line starts from a bus -/
structure TablesAgree (taps : List Rat) (net : VNet) : Prop where
  lines : net.lines.length = taps.countP (fun t => decide (t = 0))
  trafos : net.trafos.length = taps.countP (fun t => decide (t ≠ 0))
  buses : ∀ ln ∈ net.lines, ln.fromBus < net.busKv.length

/-- `net'` is `net` with all the upgrades of the clusters `cs` (MVA by branch): the current limit of a line rises by the
MVA over the voltage at its start, the size of a transformer by the MVA, and nothing else changes -/
structure Upgraded (taps : List Rat) (net : VNet) (cs : List (List Rat)) (net' : VNet) : Prop where
  buses : net'.busKv = net.busKv
  loads : net'.loads = net.loads
  noLines : net'.lines.length = net.lines.length
  noTrafos : net'.trafos.length = net.trafos.length
  line : ∀ b, taps[b]? = some 0 → ∃ ln kv, net.lines[lineNo taps b]? = some ln ∧ net.busKv[ln.fromBus]? = some kv ∧
    net'.lines[lineNo taps b]? = some ⟨ln.fromBus, ln.maxI + (cs.map (fun c => c.getD b 0)).sum / kv⟩
  trafo : ∀ b tap, taps[b]? = some tap → tap ≠ 0 → ∃ s, net.trafos[trafoNo taps b]? = some s ∧
    net'.trafos[trafoNo taps b]? = some (s + (cs.map (fun c => c.getD b 0)).sum)

/-! ## one cluster -/

theorem mva_scale (mva kv : Rat) : mva * 10 ^ 6 / (kv * 10 ^ 3) / 10 ^ 3 = mva / kv := by
  by_cases h : kv = 0
  · simp [h]
  · field_simp

theorem upgradeMixed_spec : ∀ (c taps : List Rat) (l t : Nat) (net : VNet), c.length ≤ taps.length →
    l + (taps.take c.length).countP (fun x => decide (x = 0)) ≤ net.lines.length →
    t + (taps.take c.length).countP (fun x => decide (x ≠ 0)) ≤ net.trafos.length →
    (∀ ln ∈ net.lines, ln.fromBus < net.busKv.length) →
    ∃ net', upgradeMixed c taps l t net = (net', false) ∧ net'.busKv = net.busKv ∧ net'.loads = net.loads ∧
      net'.lines.length = net.lines.length ∧ net'.trafos.length = net.trafos.length ∧
      (∀ i, i < l → net'.lines[i]? = net.lines[i]?) ∧ (∀ i, i < t → net'.trafos[i]? = net.trafos[i]?) ∧
      (∀ i, l + (taps.take c.length).countP (fun x => decide (x = 0)) ≤ i → net'.lines[i]? = net.lines[i]?) ∧
      (∀ i, t + (taps.take c.length).countP (fun x => decide (x ≠ 0)) ≤ i → net'.trafos[i]? = net.trafos[i]?) ∧
      (∀ b mva, c[b]? = some mva → taps[b]? = some 0 → ∃ ln kv, net.lines[l + lineNo taps b]? = some ln ∧
        net.busKv[ln.fromBus]? = some kv ∧ net'.lines[l + lineNo taps b]? = some ⟨ln.fromBus, ln.maxI + mva / kv⟩) ∧
      (∀ b mva tap, c[b]? = some mva → taps[b]? = some tap → tap ≠ 0 → ∃ s, net.trafos[t + trafoNo taps b]? = some s ∧
        net'.trafos[t + trafoNo taps b]? = some (s + mva)) := by
  intro c
  induction c with
  | nil =>
    intro taps l t net _ _ _ _
    exact ⟨net, by simp [upgradeMixed], rfl, rfl, rfl, rfl, fun _ _ => rfl, fun _ _ => rfl, fun _ _ => rfl,
      fun _ _ => rfl, by simp, by simp⟩
  | cons mva c ih =>
    intro taps l t net hlen hl ht hb
    cases taps with
    | nil => simp at hlen
    | cons tap taps =>
      simp only [List.length_cons, Nat.add_le_add_iff_right] at hlen
      by_cases htap : tap = 0
      · subst htap
        simp only [List.length_cons, List.take_succ_cons, List.countP_cons, decide_true, if_true, ne_eq,
          not_true, decide_false, Bool.false_eq_true, if_false, Nat.add_zero] at hl ht ⊢
        have hl0 : l < net.lines.length := by omega
        have hbus := hb _ (List.getElem_mem hl0)
        have e1 : vUpgradeLine net l mva = some ⟨net.busKv, net.loads, net.lines.set l ⟨net.lines[l].fromBus,
            net.lines[l].maxI + mva / net.busKv[net.lines[l].fromBus]⟩, net.trafos⟩ := by
          unfold vUpgradeLine
          rw [List.getElem?_eq_getElem hl0]
          simp only [List.getElem?_eq_getElem hbus, mva_scale]
        obtain ⟨net', h1, h2, h3, h4, h5, h6, h7, h8, h9, h10, h11⟩ := ih taps (l + 1) t
          ⟨net.busKv, net.loads, net.lines.set l ⟨net.lines[l].fromBus,
            net.lines[l].maxI + mva / net.busKv[net.lines[l].fromBus]⟩, net.trafos⟩
          hlen (by simpa using (by omega)) ht (by
            intro ln hln
            rcases List.mem_or_eq_of_mem_set hln with h | h
            · exact hb _ h
            · subst h; exact hbus)
        refine ⟨net', ?_, h2, h3, by simpa using h4, h5, ?_, h7, ?_, h9, ?_, ?_⟩
        · simp only [upgradeMixed, if_true, e1]; exact h1
        · intro i hi
          rw [h6 i (by omega)]
          exact List.getElem?_set_ne (by omega)
        · intro i hi
          rw [h8 i (by omega)]
          exact List.getElem?_set_ne (by omega)
        · intro b m hm ht0
          cases b with
          | zero =>
            simp only [List.getElem?_cons_zero, Option.some.injEq] at hm
            subst hm
            refine ⟨net.lines[l], net.busKv[net.lines[l].fromBus], by simp [lineNo], List.getElem?_eq_getElem hbus, ?_⟩
            simp only [lineNo, List.take_zero, List.countP_nil, Nat.add_zero]
            rw [h6 l (by omega), List.getElem?_set_self hl0]
          | succ b =>
            simp only [List.getElem?_cons_succ] at hm ht0
            obtain ⟨ln, kv, q1, q2, q3⟩ := h10 b m hm ht0
            have e : l + lineNo ((0 : Rat) :: taps) (b + 1) = l + 1 + lineNo taps b := by
              simp [lineNo]; omega
            rw [e]
            refine ⟨ln, kv, ?_, q2, q3⟩
            rw [← q1]
            exact (List.getElem?_set_ne (by omega)).symm
        · intro b m tp hm ht0 hne
          cases b with
          | zero => simp only [List.getElem?_cons_zero, Option.some.injEq] at ht0; exact absurd ht0.symm hne
          | succ b =>
            simp only [List.getElem?_cons_succ] at hm ht0
            have e : trafoNo ((0 : Rat) :: taps) (b + 1) = trafoNo taps b := by simp [trafoNo]
            rw [e]
            exact h11 b m tp hm ht0 hne
      · simp only [List.length_cons, List.take_succ_cons, List.countP_cons, decide_true, if_true, ne_eq, htap,
          not_false_eq_true, decide_false, Bool.false_eq_true, if_false, Nat.add_zero] at hl ht ⊢
        have ht0' : t < net.trafos.length := by omega
        have e1 : vUpgradeTrafo net t mva = some { net with trafos := net.trafos.set t (net.trafos[t] + mva) } := by
          unfold vUpgradeTrafo
          rw [List.getElem?_eq_getElem ht0']
        obtain ⟨net', h1, h2, h3, h4, h5, h6, h7, h8, h9, h10, h11⟩ := ih taps l (t + 1)
          { net with trafos := net.trafos.set t (net.trafos[t] + mva) } hlen hl (by simp only [List.length_set, ne_eq]; omega) hb
        refine ⟨net', ?_, h2, h3, h4, by simpa using h5, h6, ?_, h8, ?_, ?_, ?_⟩
        · simp only [upgradeMixed, htap, if_false, e1]; exact h1
        · intro i hi
          rw [h7 i (by omega)]
          exact List.getElem?_set_ne (by omega)
        · intro i hi
          rw [h9 i (by simp only [ne_eq]; omega)]
          exact List.getElem?_set_ne (by omega)
        · intro b m hm ht0
          cases b with
          | zero => simp only [List.getElem?_cons_zero, Option.some.injEq] at ht0; exact absurd ht0 htap
          | succ b =>
            simp only [List.getElem?_cons_succ] at hm ht0
            have e : lineNo (tap :: taps) (b + 1) = lineNo taps b := by simp [lineNo, htap]
            rw [e]
            exact h10 b m hm ht0
        · intro b m tp hm ht0 hne
          cases b with
          | zero =>
            simp only [List.getElem?_cons_zero, Option.some.injEq] at hm
            subst hm
            refine ⟨net.trafos[t], by simp [trafoNo], ?_⟩
            simp only [trafoNo, List.take_zero, List.countP_nil, Nat.add_zero]
            rw [h7 t (by omega), List.getElem?_set_self ht0']
          | succ b =>
            simp only [List.getElem?_cons_succ] at hm ht0
            obtain ⟨s, q1, q3⟩ := h11 b m tp hm ht0 hne
            have e : t + trafoNo (tap :: taps) (b + 1) = t + 1 + trafoNo taps b := by
              simp [trafoNo, htap]; omega
            rw [e]
            refine ⟨s, ?_, q3⟩
            rw [← q1]
            exact (List.getElem?_set_ne (by omega)).symm

theorem upgradeLines_eq : ∀ (c taps : List Rat) (l t : Nat) (net : VNet), c.length ≤ taps.length → (∀ x ∈ taps, x = 0) →
    upgradeLines c l net = upgradeMixed c taps l t net := by
  intro c
  induction c with
  | nil => intro taps l t net _ _; simp [upgradeLines, upgradeMixed]
  | cons m c ih =>
    intro taps l t net hl h0
    cases taps with
    | nil => simp at hl
    | cons tap taps =>
      have : tap = 0 := h0 tap (by simp)
      subst this
      simp only [upgradeLines, upgradeMixed, if_true]
      cases vUpgradeLine net l m with
      | none => rfl
      | some n => exact ih taps (l + 1) t n (by simpa using hl) (fun x hx => h0 x (by simp [hx]))

theorem applyCluster_mixed (taps : List Rat) (net : VNet) (c : List Rat) (h : TablesAgree taps net)
    (hc : c.length = taps.length) : applyCluster taps net c = upgradeMixed c taps 0 0 net := by
  unfold applyCluster
  split
  · rename_i h0
    refine upgradeLines_eq c taps 0 0 net hc.le ?_
    intro x hx
    by_contra hne
    have := h.trafos
    rw [h0] at this
    rw [eq_comm, List.countP_eq_zero] at this
    exact this x hx (by simpa using hne)
  · rfl

/-- **C90.** A cluster with one entry for each branch is applied without an exception, and the network it leaves has
exactly the upgrades of the cluster. -/
theorem C90_cluster_applied_partial (taps : List Rat) (net : VNet) (c : List Rat) (h : TablesAgree taps net)
    (hc : c.length = taps.length) : ∃ net', applyCluster taps net c = (net', false) ∧ Upgraded taps net [c] net' := by
  rw [applyCluster_mixed taps net c h hc]
  obtain ⟨net', h1, h2, h3, h4, h5, h6, h7, h8, h9, h10, h11⟩ := upgradeMixed_spec c taps 0 0 net hc.le
    (by rw [hc, List.take_length, h.lines]; omega) (by rw [hc, List.take_length, h.trafos]; omega) h.buses
  refine ⟨net', h1, h2, h3, h4, h5, ?_, ?_⟩
  · intro b hb
    have hb' : b < c.length := by rw [hc]; exact (List.getElem?_eq_some_iff.1 hb).1
    obtain ⟨ln, kv, q1, q2, q3⟩ := h10 b c[b] (List.getElem?_eq_getElem hb') hb
    simp only [Nat.zero_add] at q1 q3
    refine ⟨ln, kv, q1, q2, ?_⟩
    simpa [List.getD_eq_getElem?_getD, List.getElem?_eq_getElem hb'] using q3
  · intro b tap hb hne
    have hb' : b < c.length := by rw [hc]; exact (List.getElem?_eq_some_iff.1 hb).1
    obtain ⟨s, q1, q3⟩ := h11 b c[b] tap (List.getElem?_eq_getElem hb') hb hne
    simp only [Nat.zero_add] at q1 q3
    refine ⟨s, q1, ?_⟩
    simpa [List.getD_eq_getElem?_getD, List.getElem?_eq_getElem hb'] using q3

theorem Upgraded.agree {taps : List Rat} {net net' : VNet} {cs : List (List Rat)} (h : TablesAgree taps net)
    (u : Upgraded taps net cs net') (hb : ∀ ln ∈ net'.lines, ln.fromBus < net'.busKv.length) : TablesAgree taps net' :=
  ⟨by rw [u.noLines, h.lines], by rw [u.noTrafos, h.trafos], hb⟩

/-- every number below the count of the elements with a property is the number of one of them -/
theorem count_number (p : Rat → Bool) : ∀ (taps : List Rat) (l : Nat), l < taps.countP p →
    ∃ b tap, taps[b]? = some tap ∧ p tap = true ∧ (taps.take b).countP p = l := by
  intro taps
  induction taps with
  | nil => intro l hl; simp at hl
  | cons t taps ih =>
    intro l hl
    by_cases ht : p t = true
    · rw [List.countP_cons, ht] at hl
      cases l with
      | zero => exact ⟨0, t, by simp, ht, by simp⟩
      | succ l =>
        obtain ⟨b, tap, q1, q2, q3⟩ := ih l (by simpa using hl)
        exact ⟨b + 1, tap, by simpa using q1, q2, by simp [ht, q3]⟩
    · rw [List.countP_cons] at hl
      obtain ⟨b, tap, q1, q2, q3⟩ := ih l (by simpa [ht] using hl)
      exact ⟨b + 1, tap, by simpa using q1, q2, by simp [ht, q3]⟩

theorem line_number {taps : List Rat} {net : VNet} (h : TablesAgree taps net) {l : Nat} (hl : l < net.lines.length) :
    ∃ b, taps[b]? = some 0 ∧ lineNo taps b = l := by
  rw [h.lines] at hl
  obtain ⟨b, tap, q1, q2, q3⟩ := count_number _ taps l hl
  simp only [decide_eq_true_eq] at q2
  exact ⟨b, q2 ▸ q1, q3⟩

theorem trafo_number {taps : List Rat} {net : VNet} (h : TablesAgree taps net) {l : Nat} (hl : l < net.trafos.length) :
    ∃ b tap, taps[b]? = some tap ∧ tap ≠ 0 ∧ trafoNo taps b = l := by
  rw [h.trafos] at hl
  obtain ⟨b, tap, q1, q2, q3⟩ := count_number _ taps l hl
  simp only [decide_eq_true_eq] at q2
  exact ⟨b, tap, q1, q2, q3⟩

theorem Upgraded.buses_ok {taps : List Rat} {net net' : VNet} {cs : List (List Rat)} (h : TablesAgree taps net)
    (u : Upgraded taps net cs net') : ∀ ln ∈ net'.lines, ln.fromBus < net'.busKv.length := by
  intro ln hln
  obtain ⟨l, hl, rfl⟩ := List.mem_iff_getElem.1 hln
  obtain ⟨b, q1, q2⟩ := line_number h (l := l) (by rw [← u.noLines]; exact hl)
  obtain ⟨ln0, kv, r1, r2, r3⟩ := u.line b q1
  rw [q2, List.getElem?_eq_getElem hl, Option.some.injEq] at r3
  rw [r3, u.buses]
  exact (List.getElem?_eq_some_iff.1 r2).1

/-- the upgrades of a list of clusters determine the network -/
theorem C90_upgraded_unique_partial {taps : List Rat} {net a b : VNet} {cs : List (List Rat)} (h : TablesAgree taps net)
    (ua : Upgraded taps net cs a) (ub : Upgraded taps net cs b) : a = b := by
  have e1 : a.lines = b.lines := by
    apply List.ext_getElem? 
    intro l
    by_cases hl : l < net.lines.length
    · obtain ⟨x, q1, q2⟩ := line_number h hl
      obtain ⟨ln, kv, r1, r2, r3⟩ := ua.line x q1
      obtain ⟨ln', kv', s1, s2, s3⟩ := ub.line x q1
      rw [r1, Option.some.injEq] at s1
      subst s1
      rw [r2, Option.some.injEq] at s2
      subst s2
      rw [← q2, r3, s3]
    · rw [List.getElem?_eq_none (by rw [ua.noLines]; omega), List.getElem?_eq_none (by rw [ub.noLines]; omega)]
  have e2 : a.trafos = b.trafos := by
    apply List.ext_getElem? 
    intro l
    by_cases hl : l < net.trafos.length
    · obtain ⟨x, tap, q1, q2, q4⟩ := trafo_number h hl
      obtain ⟨s, r1, r3⟩ := ua.trafo x tap q1 q2
      obtain ⟨s', s1, s3⟩ := ub.trafo x tap q1 q2
      rw [r1, Option.some.injEq] at s1
      subst s1
      rw [← q4, r3, s3]
    · rw [List.getElem?_eq_none (by rw [ua.noTrafos]; omega), List.getElem?_eq_none (by rw [ub.noTrafos]; omega)]
  obtain ⟨a1, a2, a3, a4⟩ := a
  obtain ⟨b1, b2, b3, b4⟩ := b
  simp only at e1 e2
  have e3 := ua.buses.trans ub.buses.symm
  have e4 := ua.loads.trans ub.loads.symm
  simp only at e3 e4
  rw [e1, e2, e3, e4]

theorem Upgraded.trans {taps : List Rat} {a b c : VNet} {cs ds : List (List Rat)} (u : Upgraded taps a cs b)
    (v : Upgraded taps b ds c) : Upgraded taps a (cs ++ ds) c := by
  refine ⟨v.buses.trans u.buses, v.loads.trans u.loads, v.noLines.trans u.noLines, v.noTrafos.trans u.noTrafos, ?_, ?_⟩
  · intro x hx
    obtain ⟨ln, kv, r1, r2, r3⟩ := u.line x hx
    obtain ⟨ln', kv', s1, s2, s3⟩ := v.line x hx
    rw [r3, Option.some.injEq] at s1
    subst s1
    rw [u.buses] at s2
    simp only at s2
    rw [r2, Option.some.injEq] at s2
    subst s2
    refine ⟨ln, kv, r1, r2, ?_⟩
    rw [s3, List.map_append, List.sum_append, add_div, add_assoc]
  · intro x tap hx hne
    obtain ⟨s, r1, r3⟩ := u.trafo x tap hx hne
    obtain ⟨s', s1, s3⟩ := v.trafo x tap hx hne
    rw [r3, Option.some.injEq] at s1
    subst s1
    refine ⟨s, r1, ?_⟩
    rw [s3, List.map_append, List.sum_append, add_assoc]

theorem Upgraded.refl {taps : List Rat} {net : VNet} (h : TablesAgree taps net) : Upgraded taps net [] net := by
  refine ⟨rfl, rfl, rfl, rfl, ?_, ?_⟩
  · intro b hb
    obtain ⟨hb1, hb2⟩ := List.getElem?_eq_some_iff.1 hb
    have hl : lineNo taps b < net.lines.length := by
      rw [h.lines, lineNo]
      conv_rhs => rw [← List.take_append_drop b taps, List.countP_append]
      rw [List.drop_eq_getElem_cons hb1, List.countP_cons, hb2]
      simp
    have hbus := h.buses _ (List.getElem_mem hl)
    exact ⟨_, _, List.getElem?_eq_getElem hl, List.getElem?_eq_getElem hbus, by simp [List.getElem?_eq_getElem hl]⟩
  · intro b tap hb hne
    obtain ⟨hb1, hb2⟩ := List.getElem?_eq_some_iff.1 hb
    have hl : trafoNo taps b < net.trafos.length := by
      rw [h.trafos, trafoNo]
      conv_rhs => rw [← List.take_append_drop b taps, List.countP_append]
      rw [List.drop_eq_getElem_cons hb1, List.countP_cons, hb2]
      simp [hne]
    exact ⟨_, List.getElem?_eq_getElem hl, by simp [List.getElem?_eq_getElem hl]⟩

/-- square of the apparent power (MVA) of a current (kA) in a balanced three-phase system: S = √3·V·I -/
def threePhaseSq (kv i : Rat) : Rat := 3 * (kv * i) ^ 2

/-- **C90 (violated for three-phase lines).** The current that is added to a line carries √3 times the MVA that were
bought: the square of the power is three times that of the investment. -/
theorem C90_three_phase_violated (taps : List Rat) (net : VNet) (c : List Rat) (net' : VNet) (u : Upgraded taps net [c] net')
    (b : Nat) (mva : Rat) (hb : taps[b]? = some 0) (hc : c[b]? = some mva) :
    ∃ ln ln' kv, net.lines[lineNo taps b]? = some ln ∧ net'.lines[lineNo taps b]? = some ln' ∧
      net.busKv[ln.fromBus]? = some kv ∧ (kv ≠ 0 → threePhaseSq kv (ln'.maxI - ln.maxI) = 3 * mva ^ 2) := by
  obtain ⟨ln, kv, r1, r2, r3⟩ := u.line b hb
  refine ⟨ln, _, kv, r1, r3, r2, ?_⟩
  intro hk
  have e : c.getD b 0 = mva := by simp [List.getD_eq_getElem?_getD, hc]
  simp only [List.map_cons, List.map_nil, List.sum_cons, List.sum_nil, add_zero, e, threePhaseSq, add_sub_cancel_left]
  field_simp

theorem vUpgradeLine_parts {net net' : VNet} {l : Nat} {mva : Rat} (h : vUpgradeLine net l mva = some net') :
    net'.busKv = net.busKv ∧ net'.loads = net.loads ∧ net'.trafos = net.trafos ∧
      net'.lines.map (·.fromBus) = net.lines.map (·.fromBus) := by
  unfold vUpgradeLine at h
  split at h
  · exact absurd h (by simp)
  · rename_i ln hln
    split at h
    · exact absurd h (by simp)
    · simp only [Option.some.injEq] at h
      subst h
      refine ⟨rfl, rfl, rfl, ?_⟩
      simp only
      rw [List.map_set]
      apply List.ext_getElem?
      intro i
      rw [List.getElem?_set]
      split
      · rename_i e
        subst e
        split
        · rename_i hlt
          simp [hln]
        · rename_i hlt
          simp only [List.length_map] at hlt
          simp [List.getElem?_eq_none (Nat.le_of_not_lt hlt)]
      · rfl

theorem vUpgradeLine_none (net : VNet) (l : Nat) (mva : Rat) : vUpgradeLine net l mva = none ↔
    ∀ bus, (net.lines.map (·.fromBus))[l]? = some bus → net.busKv[bus]? = none := by
  unfold vUpgradeLine
  rw [List.getElem?_map]
  cases net.lines[l]? with
  | none => simp
  | some ln =>
    simp only [Option.map_some, Option.some.injEq, forall_eq']
    cases net.busKv[ln.fromBus]? <;> simp

/-- **C90.** Which clusters are skipped because applying them raises an exception, in a case with transformers: those
with an entry for a branch that has no tap value, no line (or no bus for it) or no transformer. -/
theorem C90_raises_partial (taps : List Rat) (net : VNet) (c : List Rat) (ht : net.trafos ≠ []) :
    (applyCluster taps net c).2 = true ↔ ∃ b, b < c.length ∧ (taps[b]? = none ∨
      (taps[b]? = some 0 ∧ ∀ bus, (net.lines.map (·.fromBus))[lineNo taps b]? = some bus → net.busKv[bus]? = none) ∨
      (∃ tap, taps[b]? = some tap ∧ tap ≠ 0 ∧ net.trafos.length ≤ trafoNo taps b)) := by
  have gen : ∀ (c taps : List Rat) (l t : Nat) (net : VNet), (upgradeMixed c taps l t net).2 = true ↔ ∃ b, b < c.length ∧
      (taps[b]? = none ∨
      (taps[b]? = some 0 ∧ ∀ bus, (net.lines.map (·.fromBus))[l + lineNo taps b]? = some bus → net.busKv[bus]? = none) ∨
      (∃ tap, taps[b]? = some tap ∧ tap ≠ 0 ∧ net.trafos.length ≤ t + trafoNo taps b)) := by
    intro c
    induction c with
    | nil => intro taps l t net; simp [upgradeMixed]
    | cons m c ih =>
      intro taps l t net
      cases taps with
      | nil => simp only [upgradeMixed, true_iff]; exact ⟨0, by simp, Or.inl (by simp)⟩
      | cons tap taps =>
        by_cases h0 : tap = 0
        · subst h0
          simp only [upgradeMixed, if_true]
          cases hu : vUpgradeLine net l m with
          | none =>
            simp only [true_iff]
            refine ⟨0, by simp, Or.inr (Or.inl ⟨by simp, ?_⟩)⟩
            simpa [lineNo] using (vUpgradeLine_none net l m).1 hu
          | some n =>
            obtain ⟨p1, -, p3, p4⟩ := vUpgradeLine_parts hu
            simp only
            rw [ih taps (l + 1) t n, p1, p3, p4]
            constructor
            · rintro ⟨b, hb, h⟩
              refine ⟨b + 1, by simpa using hb, ?_⟩
              have e1 : l + lineNo ((0 : Rat) :: taps) (b + 1) = l + 1 + lineNo taps b := by simp [lineNo]; omega
              have e2 : trafoNo ((0 : Rat) :: taps) (b + 1) = trafoNo taps b := by simp [trafoNo]
              rw [e1, e2]
              simpa using h
            · rintro ⟨b, hb, h⟩
              cases b with
              | zero =>
                exfalso
                rcases h with h | h | ⟨tp, h, h', -⟩
                · simp at h
                · have := (vUpgradeLine_none net l m).2 (by simpa [lineNo] using h.2)
                  rw [hu] at this; exact absurd this (by simp)
                · simp only [List.getElem?_cons_zero, Option.some.injEq] at h; exact h' h.symm
              | succ b =>
                refine ⟨b, by simpa using hb, ?_⟩
                have e1 : l + lineNo ((0 : Rat) :: taps) (b + 1) = l + 1 + lineNo taps b := by simp [lineNo]; omega
                have e2 : trafoNo ((0 : Rat) :: taps) (b + 1) = trafoNo taps b := by simp [trafoNo]
                rw [e1, e2] at h
                simpa using h
        · simp only [upgradeMixed, h0, if_false]
          cases hu : vUpgradeTrafo net t m with
          | none =>
            simp only [true_iff]
            refine ⟨0, by simp, Or.inr (Or.inr ⟨tap, by simp, h0, ?_⟩)⟩
            unfold vUpgradeTrafo at hu
            split at hu
            · rename_i h; simpa [trafoNo] using h
            · exact absurd hu (by simp)
          | some n =>
            unfold vUpgradeTrafo at hu
            split at hu
            · exact absurd hu (by simp)
            · rename_i sn hsn
              have hlt := (List.getElem?_eq_some_iff.1 hsn).1
              simp only [Option.some.injEq] at hu
              subst hu
              simp only
              rw [ih taps l (t + 1)]
              simp only [List.length_set]
              constructor
              · rintro ⟨b, hb, h⟩
                refine ⟨b + 1, by simpa using hb, ?_⟩
                have e1 : lineNo (tap :: taps) (b + 1) = lineNo taps b := by simp [lineNo, h0]
                have e2 : t + trafoNo (tap :: taps) (b + 1) = t + 1 + trafoNo taps b := by simp [trafoNo, h0]; omega
                rw [e1, e2]
                simpa using h
              · rintro ⟨b, hb, h⟩
                cases b with
                | zero =>
                  exfalso
                  rcases h with h | h | ⟨tp, h, h', h''⟩
                  · simp at h
                  · simp only [List.getElem?_cons_zero, Option.some.injEq] at h; exact h0 h.1
                  · simp [trafoNo] at h''; omega
                | succ b =>
                  refine ⟨b, by simpa using hb, ?_⟩
                  have e1 : lineNo (tap :: taps) (b + 1) = lineNo taps b := by simp [lineNo, h0]
                  have e2 : t + trafoNo (tap :: taps) (b + 1) = t + 1 + trafoNo taps b := by simp [trafoNo, h0]; omega
                  rw [e1, e2] at h
                  simpa using h
  have : net.trafos.length ≠ 0 := by simpa using ht
  unfold applyCluster
  rw [if_neg this, gen]
  simp

/-- a case with a line, a transformer and another line; the second branch is the transformer -/
def vTaps : List Rat := [0, 1, 0]
def vBase : VNet := ⟨[11, 33], [⟨0, 2, 1⟩], [⟨0, 1⟩, ⟨1, 2⟩], [5]⟩

theorem C90_witness : TablesAgree vTaps vBase ∧
    applyCluster vTaps vBase [11, 4, 66] = (⟨[11, 33], [⟨0, 2, 1⟩], [⟨0, 2⟩, ⟨1, 4⟩], [9]⟩, false) ∧
    (applyCluster vTaps vBase [11, 4, 66, 1]).2 = true := by
  refine ⟨⟨by decide +kernel, by decide +kernel, by decide +kernel⟩, by decide +kernel, by decide +kernel⟩

/-! ## C56: which cluster is returned for a node -/

/-- `c` is the first cluster in the list that works, when each cluster is tried on the network that has its upgrades and
those of all clusters tried before it -/
def FirstWorking (taps : List Rat) (opf : VNet → Bool) (cs : List (List Rat × Rat)) (net : VNet) (c : List Rat × Rat) : Prop :=
  ∃ pre post, cs = pre ++ c :: post ∧
    (∃ N, Upgraded taps net ((pre ++ [c]).map (·.1)) N ∧ opf N = true) ∧
    (∀ pre1 d pre2, pre = pre1 ++ d :: pre2 → ∀ N, Upgraded taps net ((pre1 ++ [d]).map (·.1)) N → opf N = false)

/-- no cluster works -/
def NoneWorking (taps : List Rat) (opf : VNet → Bool) (cs : List (List Rat × Rat)) (net : VNet) : Prop :=
  ∀ pre d post, cs = pre ++ d :: post → ∀ N, Upgraded taps net ((pre ++ [d]).map (·.1)) N → opf N = false

theorem verify_spec (taps : List Rat) (opf : VNet → Bool) : ∀ (cs : List (List Rat × Rat)) (net : VNet)
    (_ : TablesAgree taps net) (_ : ∀ c ∈ cs, c.1.length = taps.length),
    (∀ c, verifyClusters taps opf cs net = some c → FirstWorking taps opf cs net c) ∧
    (verifyClusters taps opf cs net = none → NoneWorking taps opf cs net) := by
  intro cs
  induction cs with
  | nil =>
    intro net _ _
    refine ⟨by simp [verifyClusters], ?_⟩
    intro _ pre d post h
    simp at h
  | cons d cs ih =>
    intro net ha hlen
    obtain ⟨N, hN, uN⟩ := C90_cluster_applied_partial taps net d.1 ha (hlen d (by simp))
    have haN := uN.agree ha (uN.buses_ok ha)
    obtain ⟨ih1, ih2⟩ := ih N haN (fun c hc => hlen c (by simp [hc]))
    simp only [verifyClusters, hN, Bool.not_false, Bool.true_and]
    have fst0 : ∀ M, Upgraded taps net [d.1] M → M = N := fun M hM => C90_upgraded_unique_partial ha hM uN
    have step : ∀ (ds : List (List Rat)) M, Upgraded taps net (d.1 :: ds) M ↔ Upgraded taps N ds M := by
      intro ds M
      constructor
      · intro h
        refine ⟨h.buses.trans uN.buses.symm, h.loads.trans uN.loads.symm, h.noLines.trans uN.noLines.symm,
          h.noTrafos.trans uN.noTrafos.symm, ?_, ?_⟩
        · intro b hb
          obtain ⟨ln, kv, r1, r2, r3⟩ := h.line b hb
          obtain ⟨ln', kv', s1, s2, s3⟩ := uN.line b hb
          rw [r1, Option.some.injEq] at s1; subst s1
          rw [r2, Option.some.injEq] at s2; subst s2
          refine ⟨_, kv, s3, by rw [uN.buses]; exact r2, ?_⟩
          rw [r3]
          simp only [List.map_cons, List.map_nil, List.sum_cons, List.sum_nil, add_zero, add_div, add_assoc]
        · intro b tap hb hne
          obtain ⟨s, r1, r3⟩ := h.trafo b tap hb hne
          obtain ⟨s', s1, s3⟩ := uN.trafo b tap hb hne
          rw [r1, Option.some.injEq] at s1; subst s1
          refine ⟨_, s3, ?_⟩
          rw [r3]
          simp only [List.map_cons, List.map_nil, List.sum_cons, List.sum_nil, add_zero, add_assoc]
      · intro h
        simpa using uN.trans h
    by_cases ho : opf N = true
    · rw [if_pos ho]
      refine ⟨?_, by simp⟩
      intro c hc
      simp only [Option.some.injEq] at hc
      subst hc
      refine ⟨[], cs, by simp, ⟨N, by simpa using uN, ho⟩, ?_⟩
      intro pre1 e pre2 h
      simp at h
    · rw [if_neg ho]
      simp only [Bool.not_eq_true] at ho
      refine ⟨?_, ?_⟩
      · intro c hc
        obtain ⟨pre, post, q1, ⟨M, q2, q3⟩, q4⟩ := ih1 c hc
        refine ⟨d :: pre, post, by simp [q1], ⟨M, ?_, q3⟩, ?_⟩
        · simp only [List.cons_append, List.map_cons]
          exact (step _ _).2 q2
        · intro pre1 e pre2 h M hM
          cases pre1 with
          | nil =>
            simp only [List.nil_append, List.cons.injEq] at h
            obtain ⟨rfl, rfl⟩ := h
            simp only [List.nil_append, List.map_cons, List.map_nil] at hM
            rw [fst0 M hM, ho]
          | cons x pre1 =>
            simp only [List.cons_append, List.cons.injEq] at h
            obtain ⟨rfl, h⟩ := h
            simp only [List.cons_append, List.map_cons] at hM
            exact q4 pre1 e pre2 h M ((step _ _).1 hM)
      · intro hc pre e post h M hM
        cases pre with
        | nil =>
          simp only [List.nil_append, List.cons.injEq] at h
          obtain ⟨rfl, rfl⟩ := h
          simp only [List.nil_append, List.map_cons, List.map_nil] at hM
          rw [fst0 M hM, ho]
        | cons x pre =>
          simp only [List.cons_append, List.cons.injEq] at h
          obtain ⟨rfl, h⟩ := h
          simp only [List.cons_append, List.map_cons] at hM
          exact ih2 hc pre e post h M ((step _ _).1 hM)

theorem firstWorking_unique {taps : List Rat} {opf : VNet → Bool} {cs : List (List Rat × Rat)} {net : VNet}
    {c d : List Rat × Rat} (hc : FirstWorking taps opf cs net c) (hd : FirstWorking taps opf cs net d) : c = d := by
  obtain ⟨p, q, e1, ⟨N, u, o⟩, f⟩ := hc
  obtain ⟨p', q', e1', ⟨N', u', o'⟩, f'⟩ := hd
  rw [e1] at e1'
  rcases List.append_eq_append_iff.1 e1' with ⟨a, h1, h2⟩ | ⟨a, h1, h2⟩
  · cases a with
    | nil => simp only [List.nil_append, List.cons.injEq] at h2; exact h2.1
    | cons x a =>
      simp only [List.cons_append, List.cons.injEq] at h2
      obtain ⟨rfl, -⟩ := h2
      have := f' p c a h1 N u
      rw [o] at this; exact absurd this (by simp)
  · cases a with
    | nil => simp only [List.nil_append, List.cons.injEq] at h2; exact h2.1.symm
    | cons x a =>
      simp only [List.cons_append, List.cons.injEq] at h2
      obtain ⟨rfl, -⟩ := h2
      have := f p' d a h1 N' u'
      rw [o'] at this; exact absurd this (by simp)

/-- **C56 (what is returned).** The cluster returned for a node is the first one in the list for which the OPF converges
on the network with the upgrades of this cluster *and of all clusters tried before it*; nothing is returned exactly if
there is no such cluster. -/
theorem C56_exact_partial (taps : List Rat) (opf : VNet → Bool) (cs : List (List Rat × Rat)) (net : VNet)
    (ha : TablesAgree taps net) (hlen : ∀ c ∈ cs, c.1.length = taps.length) :
    (∀ c, verifyClusters taps opf cs net = some c ↔ FirstWorking taps opf cs net c) ∧
    (verifyClusters taps opf cs net = none ↔ NoneWorking taps opf cs net) := by
  obtain ⟨h1, h2⟩ := verify_spec taps opf cs net ha hlen
  refine ⟨fun c => ⟨h1 c, ?_⟩, h2, ?_⟩
  · intro hc
    cases h : verifyClusters taps opf cs net with
    | none =>
      exfalso
      obtain ⟨p, q, e1, ⟨N, u, o⟩, -⟩ := hc
      have := h2 h p c q e1 N u
      rw [o] at this; exact absurd this (by simp)
    | some d => rw [firstWorking_unique hc (h1 d h)]
  · intro hn
    cases h : verifyClusters taps opf cs net with
    | none => rfl
    | some d =>
      exfalso
      obtain ⟨p, q, e1, ⟨N, u, o⟩, -⟩ := h1 d h
      have := hn p d q e1 N u
      rw [o] at this; exact absurd this (by simp)

theorem Upgraded.drop_zeros {taps : List Rat} {net N : VNet} {zs : List (List Rat)} {c : List Rat}
    (u : Upgraded taps net (zs ++ [c]) N) (hz : ∀ z ∈ zs, ∀ x ∈ z, x = 0) : Upgraded taps net [c] N := by
  have hs : ∀ b, ((zs ++ [c]).map (fun c => c.getD b 0)).sum = ([c].map (fun c => c.getD b 0)).sum := by
    intro b
    rw [List.map_append, List.sum_append]
    have : (zs.map (fun c => c.getD b 0)).sum = 0 := by
      apply List.sum_eq_zero
      intro x hx
      obtain ⟨z, hz', rfl⟩ := List.mem_map.1 hx
      rw [List.getD_eq_getElem?_getD]
      cases hb : z[b]? with
      | none => simp
      | some y => simpa using hz z hz' y (List.mem_of_getElem? hb)
    rw [this, zero_add]
  refine ⟨u.buses, u.loads, u.noLines, u.noTrafos, ?_, ?_⟩
  · intro b hb
    obtain ⟨ln, kv, r1, r2, r3⟩ := u.line b hb
    exact ⟨ln, kv, r1, r2, by rw [r3, hs]⟩
  · intro b tap hb hne
    obtain ⟨s, r1, r3⟩ := u.trafo b tap hb hne
    exact ⟨s, r1, by rw [r3, hs]⟩

/-- **C56 (partial).** If all clusters tried before it are empty, the cluster that is returned works on the network with
its own upgrades only.  (Missing: the case in which a non-empty cluster was tried before, where it fails,
`C56_own_upgrades_violated`.) -/
theorem C56_own_upgrades_partial (taps : List Rat) (opf : VNet → Bool) (cs : List (List Rat × Rat)) (net : VNet)
    (ha : TablesAgree taps net) (hlen : ∀ c ∈ cs, c.1.length = taps.length) (c : List Rat × Rat)
    (h : verifyClusters taps opf cs net = some c)
    (hz : ∀ pre post, cs = pre ++ c :: post → ∀ d ∈ pre, ∀ x ∈ d.1, x = 0) :
    ∃ N, Upgraded taps net [c.1] N ∧ opf N = true := by
  obtain ⟨pre, post, e, ⟨N, u, o⟩, -⟩ := ((C56_exact_partial taps opf cs net ha hlen).1 c).1 h
  refine ⟨N, ?_, o⟩
  have h0 := hz pre post e
  rw [List.map_append, List.map_cons, List.map_nil] at u
  refine u.drop_zeros ?_
  intro z hz'
  obtain ⟨d, hd, rfl⟩ := List.mem_map.1 hz'
  exact h0 d hd

/-- two lines that both have to carry at least 2 kA -/
def vTwo : VNet := ⟨[1], [], [⟨0, 1⟩, ⟨0, 1⟩], []⟩
def vBoth : VNet → Bool := fun n => n.lines.all (fun l => decide (2 ≤ l.maxI))

/-- **C56 (violated).** A cluster can be returned that does not work on the network with its own upgrades. -/
theorem C56_own_upgrades_violated : ∃ (taps : List Rat) (opf : VNet → Bool) (cs : List (List Rat × Rat)) (net : VNet)
    (c : List Rat × Rat), TablesAgree taps net ∧ (∀ c ∈ cs, c.1.length = taps.length) ∧
    verifyClusters taps opf cs net = some c ∧ ∀ N, Upgraded taps net [c.1] N → opf N = false := by
  have ha : TablesAgree [0, 0] vTwo := ⟨by decide +kernel, by decide +kernel, by decide +kernel⟩
  refine ⟨[0, 0], vBoth, [([0, 0], 0), ([1, 0], 60000), ([0, 2], 120000)], vTwo, ([0, 2], 120000), ha,
    by decide +kernel, by decide +kernel, ?_⟩
  intro N u
  obtain ⟨M, h1, h2⟩ := C90_cluster_applied_partial [0, 0] vTwo [0, 2] ha rfl
  have h1' : M = ⟨[1], [], [⟨0, 1⟩, ⟨0, 3⟩], []⟩ := by
    have : applyCluster [0, 0] vTwo [0, 2] = (⟨[1], [], [⟨0, 1⟩, ⟨0, 3⟩], []⟩, false) := by decide +kernel
    rw [this] at h1
    exact (Prod.ext_iff.1 h1).1.symm
  rw [C90_upgraded_unique_partial ha u h2, h1']
  decide +kernel

/-! ## C91: the nodes of the tree -/

/-- the nodes of the tree in the order of the years, with the number of the year -/
def treeNodes (mult : List (List (List Rat))) : List (Nat × List Rat) :=
  (mult.zipIdx).flatMap (fun r => r.1.map (fun m => (r.2, m)))

/-- the number of the node at position `j` of year `y` -/
def nodeNo (mult : List (List (List Rat))) (y j : Nat) : Nat := ((mult.take y).map List.length).sum + j

theorem zipIdx_flat_get : ∀ (mult : List (List (List Rat))) (k y j : Nat) (row : List (List Rat)) (m : List Rat),
    mult[y]? = some row → row[j]? = some m →
    ((mult.zipIdx k).flatMap (fun r => r.1.map (fun m => (r.2, m))))[nodeNo mult y j]? = some (k + y, m) := by
  intro mult
  induction mult with
  | nil => intro k y j row m h; simp at h
  | cons r mult ih =>
    intro k y j row m h hj
    rw [List.zipIdx_cons, List.flatMap_cons]
    cases y with
    | zero =>
      simp only [List.getElem?_cons_zero, Option.some.injEq] at h
      subst h
      have hlt := (List.getElem?_eq_some_iff.1 hj).1
      simp only [nodeNo, List.take_zero, List.map_nil, List.sum_nil, Nat.zero_add, Nat.add_zero]
      rw [List.getElem?_append_left (by simpa using hlt), List.getElem?_map, hj]
      rfl
    | succ y =>
      simp only [List.getElem?_cons_succ] at h
      have := ih (k + 1) y j row m h hj
      have e : nodeNo (r :: mult) (y + 1) j = r.length + nodeNo mult y j := by simp [nodeNo]; omega
      rw [e, List.getElem?_append_right (by simp)]
      simp only [List.length_map, Nat.add_sub_cancel_left]
      rw [this]
      congr 2
      omega

/-- the node at position `j` of year `y` has the number `nodeNo` -/
theorem treeNodes_get {mult : List (List (List Rat))} {y j : Nat} {row : List (List Rat)} {m : List Rat}
    (h : mult[y]? = some row) (hj : row[j]? = some m) : (treeNodes mult)[nodeNo mult y j]? = some (y, m) := by
  have := zipIdx_flat_get mult 0 y j row m h hj
  simpa [treeNodes] using this

/-- verification of a list of nodes -/
def verifyFlat (base : VNet) (taps : List Rat) (useEv : Bool) (ev : Int → Except PyErr (List Rat)) (opf : VNet → Bool)
    (cs : List (List Rat × Rat)) : Nat → List (Nat × List Rat) → Verified → Except PyErr Verified
  | _, [], v => .ok v
  | node, p :: ps, v => do
    let v' ← verifyNode base taps useEv ev opf cs p.1 node p.2 v
    verifyFlat base taps useEv ev opf cs (node + 1) ps v'

theorem verifyFlat_append (base : VNet) (taps : List Rat) (useEv : Bool) (ev : Int → Except PyErr (List Rat))
    (opf : VNet → Bool) (cs : List (List Rat × Rat)) : ∀ (ps qs : List (Nat × List Rat)) (node : Nat) (v : Verified),
    verifyFlat base taps useEv ev opf cs node (ps ++ qs) v =
      (verifyFlat base taps useEv ev opf cs node ps v >>= fun v' => verifyFlat base taps useEv ev opf cs (node + ps.length) qs v') := by
  intro ps
  induction ps with
  | nil => intro qs node v; rfl
  | cons p ps ih =>
    intro qs node v
    simp only [List.cons_append, verifyFlat, bind, Except.bind]
    cases verifyNode base taps useEv ev opf cs p.1 node p.2 v with
    | error e => rfl
    | ok v' =>
      simp only
      rw [ih]
      simp only [bind, Except.bind, List.length_cons]
      have : node + 1 + ps.length = node + (ps.length + 1) := by omega
      rw [this]

theorem verifyYear_flat (base : VNet) (taps : List Rat) (useEv : Bool) (ev : Int → Except PyErr (List Rat))
    (opf : VNet → Bool) (cs : List (List Rat × Rat)) (year : Nat) : ∀ (row : List (List Rat)) (node : Nat) (v : Verified),
    verifyYear base taps useEv ev opf cs year node row v =
      verifyFlat base taps useEv ev opf cs node (row.map (fun m => (year, m))) v := by
  intro row
  induction row with
  | nil => intro node v; rfl
  | cons m row ih =>
    intro node v
    simp only [verifyYear, List.map_cons, verifyFlat, ih]

theorem verifyYears_flat (base : VNet) (taps : List Rat) (useEv : Bool) (ev : Int → Except PyErr (List Rat))
    (opf : VNet → Bool) (cs : List (List Rat × Rat)) : ∀ (rows : List (List (List Rat))) (year node : Nat) (v : Verified),
    verifyYears base taps useEv ev opf cs year node rows v =
      verifyFlat base taps useEv ev opf cs node ((rows.zipIdx year).flatMap (fun r => r.1.map (fun m => (r.2, m)))) v := by
  intro rows
  induction rows with
  | nil => intro year node v; rfl
  | cons row rows ih =>
    intro year node v
    rw [List.zipIdx_cons, List.flatMap_cons, verifyFlat_append]
    simp only [verifyYears, verifyYear_flat, List.length_map, ih]

theorem storeNode_ok {n : Nat} {v v' : Verified} {r : Option (List Rat × Rat)} (hv : v.costs.length = v.lines.length)
    (h : storeNode n v r = .ok v') : v'.lines.length = v.lines.length ∧ v'.costs.length = v.costs.length ∧
      (∀ i, i ≠ n → v'.lines[i]? = v.lines[i]? ∧ v'.costs[i]? = v.costs[i]?) ∧
      (r = none → v'.lines[n]? = v.lines[n]? ∧ v'.costs[n]? = v.costs[n]? ∧ v'.failed = true) ∧
      (∀ c, r = some c → v'.lines[n]? = some c.1 ∧ v'.costs[n]? = some (some c.2) ∧ v'.failed = v.failed) := by
  cases r with
  | none =>
    simp only [storeNode, Except.ok.injEq] at h
    subst h
    simp
  | some c =>
    simp only [storeNode] at h
    split at h
    · rename_i hn
      simp only [Except.ok.injEq] at h
      subst h
      refine ⟨by simp, by simp, ?_, by simp, ?_⟩
      · intro i hi
        exact ⟨List.getElem?_set_ne (Ne.symm hi), List.getElem?_set_ne (Ne.symm hi)⟩
      · intro d hd
        simp only [Option.some.injEq] at hd
        subst hd
        exact ⟨List.getElem?_set_self hn, List.getElem?_set_self (by omega), rfl⟩
    · exact absurd h (by simp)

theorem verifyFlat_spec (base : VNet) (taps : List Rat) (useEv : Bool) (ev : Int → Except PyErr (List Rat))
    (opf : VNet → Bool) (cs : List (List Rat × Rat)) : ∀ (ps : List (Nat × List Rat)) (node : Nat) (v v' : Verified),
    v.costs.length = v.lines.length → verifyFlat base taps useEv ev opf cs node ps v = .ok v' →
    v'.lines.length = v.lines.length ∧ v'.costs.length = v.costs.length ∧
    (∀ i, i < node ∨ node + ps.length ≤ i → v'.lines[i]? = v.lines[i]? ∧ v'.costs[i]? = v.costs[i]?) ∧
    (∀ (k y : Nat) (m : List Rat), ps[k]? = some (y, m) → ∃ net, nodeNet base useEv ev y m = .ok net ∧
      (verifyClusters taps opf cs net = none → v'.lines[node + k]? = v.lines[node + k]? ∧
        v'.costs[node + k]? = v.costs[node + k]?) ∧
      (∀ c, verifyClusters taps opf cs net = some c → v'.lines[node + k]? = some c.1 ∧ v'.costs[node + k]? = some (some c.2))) ∧
    (v'.failed = true ↔ v.failed = true ∨ ∃ (k y : Nat) (m : List Rat) (net : VNet), ps[k]? = some (y, m) ∧ nodeNet base useEv ev y m = .ok net ∧
      verifyClusters taps opf cs net = none) := by
  intro ps
  induction ps with
  | nil =>
    intro node v v' _ h
    simp only [verifyFlat, Except.ok.injEq] at h
    subst h
    simp
  | cons p ps ih =>
    intro node v v' hv h
    simp only [verifyFlat] at h
    obtain ⟨w, hw, h⟩ := except_bind_ok.1 h
    unfold verifyNode at hw
    obtain ⟨net, hnet, hw⟩ := except_bind_ok.1 hw
    obtain ⟨s1, s2, s3, s4, s5⟩ := storeNode_ok hv hw
    obtain ⟨t1, t2, t3, t4, t5⟩ := ih (node + 1) w v' (by omega) h
    refine ⟨by omega, by omega, ?_, ?_, ?_⟩
    · intro i hi
      obtain ⟨a1, a2⟩ := t3 i (by simp only [List.length_cons] at hi; omega)
      obtain ⟨b1, b2⟩ := s3 i (by simp only [List.length_cons] at hi; omega)
      exact ⟨a1.trans b1, a2.trans b2⟩
    · intro k y m hk
      cases k with
      | zero =>
        simp only [List.getElem?_cons_zero, Option.some.injEq] at hk
        subst hk
        refine ⟨net, hnet, ?_, ?_⟩
        · intro hn
          obtain ⟨a1, a2⟩ := t3 node (by omega)
          obtain ⟨b1, b2, -⟩ := s4 hn
          exact ⟨a1.trans b1, a2.trans b2⟩
        · intro c hc
          obtain ⟨a1, a2⟩ := t3 node (by omega)
          obtain ⟨b1, b2, -⟩ := s5 c hc
          exact ⟨a1.trans b1, a2.trans b2⟩
      | succ k =>
        simp only [List.getElem?_cons_succ] at hk
        obtain ⟨net', q1, q2, q3⟩ := t4 k y m hk
        have e : node + (k + 1) = node + 1 + k := by omega
        obtain ⟨b1, b2⟩ := s3 (node + 1 + k) (by omega)
        rw [e]
        exact ⟨net', q1, fun hn => ⟨(q2 hn).1.trans b1, (q2 hn).2.trans b2⟩, q3⟩
    · rw [t5]
      constructor
      · rintro (hf | ⟨k, y, m, net', q1, q2, q3⟩)
        · cases hr : verifyClusters taps opf cs net with
          | none => exact Or.inr ⟨0, p.1, p.2, net, by simp, hnet, hr⟩
          | some c => exact Or.inl ((s5 c hr).2.2 ▸ hf)
        · exact Or.inr ⟨k + 1, y, m, net', by simpa using q1, q2, q3⟩
      · rintro (hf | ⟨k, y, m, net', q1, q2, q3⟩)
        · left
          cases hr : verifyClusters taps opf cs net with
          | none => exact (s4 hr).2.2
          | some c => exact (s5 c hr).2.2.trans hf
        · cases k with
          | zero =>
            left
            simp only [List.getElem?_cons_zero, Option.some.injEq] at q1
            subst q1
            rw [hnet, Except.ok.injEq] at q2
            subst q2
            exact (s4 q3).2.2
          | succ k => exact Or.inr ⟨k, y, m, net', by simpa using q1, q2, q3⟩

/-- what `np.argsort` guarantees: the positions in the order of the values -/
def IsArgsort (argsort : List Rat → List Nat) : Prop :=
  ∀ l, (argsort l).Perm (List.range l.length) ∧ ((argsort l).map (fun i => l.getD i 0)).Pairwise (· ≤ ·)

/-- the list of clusters that is tried: all clusters and the empty one, in the order of their costs, where every MVA
costs 60000 -/
structure TriedInOrder (clusters : List (List Rat)) (sorted : List (List Rat × Rat)) : Prop where
  all : (sorted.map (·.1)).Perm (clusters ++ [List.replicate ((clusters.head?.map List.length).getD 0) 0])
  cost : ∀ p ∈ sorted, p.2 = 60000 * p.1.sum
  order : sorted.Pairwise (fun p q => p.2 ≤ q.2)

theorem sortedClusters_spec (argsort : List Rat → List Nat) (hs : IsArgsort argsort) (clusters : List (List Rat))
    (hne : clusters ≠ []) : ∃ sorted, sortedClusters argsort clusters = .ok sorted ∧ TriedInOrder clusters sorted := by
  obtain ⟨c0, cl, rfl⟩ := List.exists_cons_of_ne_nil hne
  obtain ⟨all, hall⟩ : ∃ a, a = (c0 :: cl) ++ [List.replicate c0.length (0 : Rat)] := ⟨_, rfl⟩
  obtain ⟨costs, hcosts⟩ : ∃ k, k = all.map (fun c => c.sum * 60000) := ⟨_, rfl⟩
  obtain ⟨hp, ho⟩ := hs costs
  have hlen : costs.length = all.length := by rw [hcosts, List.length_map]
  have hmem : ∀ i ∈ argsort costs, i < all.length := by
    intro i hi
    have := hp.mem_iff.1 hi
    rw [List.mem_range] at this
    omega
  have hk : ∀ i, i < all.length → costs.getD i 0 = 60000 * (all.getD i []).sum := by
    intro i hi
    rw [hcosts, List.getD_eq_getElem?_getD, List.getElem?_map, List.getD_eq_getElem?_getD, List.getElem?_eq_getElem hi]
    simp [mul_comm]
  have hmap : (argsort costs).mapM (fun (i : Nat) => (do
      let c ← pyGet all (i : Int)
      let k ← pyGet costs (i : Int)
      return (c, k) : Except PyErr (List Rat × Rat))) = .ok ((argsort costs).map (fun i => (all.getD i [], costs.getD i 0))) := by
    apply mapM_all
    intro i hi
    have h1 := hmem i hi
    have h2 : i < costs.length := by omega
    rw [pyGet_ok all i h1, pyGet_ok costs i h2]
    simp [bind, Except.bind, pure, Except.pure, List.getD_eq_getElem?_getD, List.getElem?_eq_getElem h1, List.getElem?_eq_getElem h2]
  refine ⟨(argsort costs).map (fun i => (all.getD i [], costs.getD i 0)), ?_, ?_, ?_, ?_⟩
  · simp only [sortedClusters]
    rw [← hall, ← hcosts]
    exact hmap
  · have e : ((argsort costs).map (fun i => (all.getD i [], costs.getD i 0))).map (·.1) = (argsort costs).map (fun i => all.getD i []) := by
      rw [List.map_map]; rfl
    rw [e]
    refine (hp.map _).trans ?_
    rw [hlen]
    have e2 : (List.range all.length).map (fun i => all.getD i []) = all := by
      apply List.ext_getElem?
      intro i
      rw [List.getElem?_map]
      by_cases hi : i < all.length
      · rw [List.getElem?_range hi]
        simp [List.getD_eq_getElem?_getD, List.getElem?_eq_getElem hi]
      · rw [List.getElem?_eq_none (by simpa using hi), List.getElem?_eq_none (by omega)]
        rfl
    rw [e2, hall]
    simp
  · intro p hpm
    obtain ⟨i, hi, rfl⟩ := List.mem_map.1 hpm
    exact hk i (hmem i hi)
  · rw [List.pairwise_map] at ho ⊢
    exact ho

/-- **C91.** If the verification does not raise, then for every node of the tree, at position `j` of year `y`: its
network is built, and if a cluster works for it, the cluster and its cost are stored under the node's number;
otherwise its entries keep their initial values.  A failure is reported exactly if for some node no cluster works. -/
theorem C91_nodes (argsort : List Rat → List Nat) (base : VNet) (taps : List Rat) (useEv : Bool)
    (ev : Int → Except PyErr (List Rat)) (opf : VNet → Bool) (clusters : List (List Rat)) (mult : List (List (List Rat)))
    (v : Verified) (h : clusterVerification argsort base taps useEv ev opf clusters mult = .ok v) :
    ∃ sorted, sortedClusters argsort clusters = .ok sorted ∧
    v.lines.length = 2 ^ mult.length - 1 ∧ v.costs.length = 2 ^ mult.length - 1 ∧
    (∀ (y j : Nat) (row : List (List Rat)) (m : List Rat), mult[y]? = some row → row[j]? = some m → ∃ net, nodeNet base useEv ev y m = .ok net ∧
      (∀ c, verifyClusters taps opf sorted net = some c →
        v.lines[nodeNo mult y j]? = some c.1 ∧ v.costs[nodeNo mult y j]? = some (some c.2)) ∧
      (verifyClusters taps opf sorted net = none → nodeNo mult y j < 2 ^ mult.length - 1 →
        v.lines[nodeNo mult y j]? = some (List.replicate ((clusters.head?.map List.length).getD 0) 0) ∧
        v.costs[nodeNo mult y j]? = some none)) ∧
    (v.failed = true ↔ ∃ (y j : Nat) (row : List (List Rat)) (m : List Rat) (net : VNet), mult[y]? = some row ∧ row[j]? = some m ∧
      nodeNet base useEv ev y m = .ok net ∧ verifyClusters taps opf sorted net = none) := by
  unfold clusterVerification at h
  obtain ⟨sorted, hs, h⟩ := except_bind_ok.1 h
  refine ⟨sorted, hs, ?_⟩
  simp only at h
  have hsum : ∀ n, ((List.range n).map (fun k => 2 ^ k)).sum = 2 ^ n - 1 := by
    intro n
    induction n with
    | zero => rfl
    | succ n ih =>
      rw [List.range_succ, List.map_append, List.sum_append, ih]
      simp only [List.map_cons, List.map_nil, List.sum_cons, List.sum_nil, pow_succ]
      have : 1 ≤ 2 ^ n := Nat.one_le_two_pow
      omega
  rw [hsum, verifyYears_flat] at h
  obtain ⟨h1, h2, -, h4, h5⟩ := verifyFlat_spec base taps useEv ev opf sorted _ 0 _ v (by simp) h
  simp only [List.length_replicate, Nat.zero_add] at h1 h2 h4 h5
  change ∀ (k y : Nat) (m : List Rat), (treeNodes mult)[k]? = some (y, m) → _ at h4
  refine ⟨h1, h2, ?_, ?_⟩
  · intro y j row m hy hj
    obtain ⟨net, q1, q2, q3⟩ := h4 _ y m (treeNodes_get hy hj)
    refine ⟨net, q1, q3, ?_⟩
    intro hn hlt
    obtain ⟨r1, r2⟩ := q2 hn
    rw [r1, r2]
    simp [hlt]
  · rw [h5]
    constructor
    · rintro (hf | ⟨k, y, m, net, q1, q2, q3⟩)
      · exact absurd hf (by simp)
      · have hm := List.mem_of_getElem? q1
        simp only [List.mem_flatMap, List.mem_map] at hm
        obtain ⟨⟨row, yy⟩, hr, m', hm', e⟩ := hm
        simp only [Prod.mk.injEq] at e
        obtain ⟨rfl, rfl⟩ := e
        have hr' := List.mem_zipIdx_iff_getElem?.1 hr
        simp only at hr'
        obtain ⟨j, hj⟩ := List.mem_iff_getElem?.1 hm'
        exact ⟨yy, j, row, m', net, hr', hj, q2, q3⟩
    · rintro ⟨y, j, row, m, net, hy, hj, q2, q3⟩
      exact Or.inr ⟨_, y, m, net, treeNodes_get hy hj, q2, q3⟩

/-- **C91.** In a tree with 2^y nodes in year y, the node at position `j` of year `y` has the number 2^y − 1 + j; in
particular different nodes have different numbers, and all numbers are below the size of the result. -/
theorem C91_numbers (mult : List (List (List Rat))) (hfull : ∀ y row, mult[y]? = some row → row.length = 2 ^ y) (y j : Nat)
    (hy : y < mult.length) (hj : j < 2 ^ y) : nodeNo mult y j = 2 ^ y - 1 + j ∧ nodeNo mult y j < 2 ^ mult.length - 1 := by
  have gen : ∀ y, y ≤ mult.length → ((mult.take y).map List.length).sum = 2 ^ y - 1 := by
    intro y
    induction y with
    | zero => intro _; rfl
    | succ y ih =>
      intro hy
      have hlt : y < mult.length := by omega
      rw [List.take_succ_eq_append_getElem hlt, List.map_append, List.sum_append, ih (by omega)]
      simp only [List.map_cons, List.map_nil, List.sum_cons, List.sum_nil, pow_succ]
      rw [hfull y _ (List.getElem?_eq_getElem hlt)]
      have : 1 ≤ 2 ^ y := Nat.one_le_two_pow
      omega
  have e : nodeNo mult y j = 2 ^ y - 1 + j := by rw [nodeNo, gen y (by omega)]
  refine ⟨e, ?_⟩
  rw [e]
  have h1 : 2 ^ (y + 1) ≤ 2 ^ mult.length := Nat.pow_le_pow_right (by norm_num) hy
  have h2 : 1 ≤ 2 ^ y := Nat.one_le_two_pow
  rw [pow_succ] at h1
  omega

/-- **C91.** A tree with more nodes than a binary tree of its depth raises an exception, unless the network cannot be
built or no cluster works for the nodes beyond the size of a binary tree. -/
theorem C91_too_many_nodes (argsort : List Rat → List Nat) (base : VNet) (taps : List Rat) (useEv : Bool)
    (ev : Int → Except PyErr (List Rat)) (opf : VNet → Bool) (clusters : List (List Rat)) (mult : List (List (List Rat)))
    (sorted : List (List Rat × Rat)) (hs : sortedClusters argsort clusters = .ok sorted) (y j : Nat) (row : List (List Rat))
    (m : List Rat) (hy : mult[y]? = some row) (hj : row[j]? = some m) (hbig : 2 ^ mult.length - 1 ≤ nodeNo mult y j)
    (net : VNet) (hnet : nodeNet base useEv ev y m = .ok net) (c : List Rat × Rat)
    (hc : verifyClusters taps opf sorted net = some c) (v : Verified) :
    clusterVerification argsort base taps useEv ev opf clusters mult ≠ .ok v := by
  intro h
  obtain ⟨sorted', hs', h1, -, h3, -⟩ := C91_nodes argsort base taps useEv ev opf clusters mult v h
  rw [hs, Except.ok.injEq] at hs'
  subst hs'
  obtain ⟨net', q1, q2, -⟩ := h3 y j row m hy hj
  rw [hnet, Except.ok.injEq] at q1
  subst q1
  have := (List.getElem?_eq_some_iff.1 (q2 c hc).1).1
  omega

/-- **C91.** The network of a node: the loads of the case times the multiplier of the *first* bus, whatever the
multipliers of the other buses are; with additional loads, these are added to the active power at the bus of the load. -/
theorem C91_loads (base : VNet) (ev : Int → Except PyErr (List Rat)) (year : Nat) (mult : List Rat) (net : VNet) :
    (nodeNet base false ev year mult = .ok net ↔ ∃ m, mult.head? = some m ∧
      net = { base with loads := base.loads.map (fun x => ⟨x.bus, x.p * m, x.q * m⟩) }) ∧
    (nodeNet base true ev year mult = .ok net → ∃ m add, mult.head? = some m ∧
      yearAdditions true ev base.busKv.length year = .ok add ∧
      net.busKv = base.busKv ∧ net.lines = base.lines ∧ net.trafos = base.trafos ∧
      List.Forall₂ (fun x x' => ∃ a, add[x.bus]? = some a ∧ x' = ⟨x.bus, x.p * m + a, x.q * m⟩) base.loads net.loads) := by
  constructor
  · unfold nodeNet yearAdditions
    simp only [Bool.false_eq_true, if_false, bind, Except.bind]
    cases hm : pyGet mult 0 with
    | error e =>
      simp only [reduceCtorEq, false_iff, not_exists, not_and]
      intro m hm' 
      rw [(pyGet_zero mult m).2 hm'] at hm
      exact absurd hm (by simp)
    | ok m =>
      have hm' := (pyGet_zero mult m).1 hm
      simp only [Except.ok.injEq, hm', Option.some.injEq, exists_eq_left', scaleLoads]
      exact eq_comm
  · intro h
    unfold nodeNet at h
    obtain ⟨add, ha, h⟩ := except_bind_ok.1 h
    obtain ⟨m, hm, h⟩ := except_bind_ok.1 h
    simp only [if_true] at h
    unfold addLoads at h
    obtain ⟨ls, hls, h⟩ := except_bind_ok.1 h
    simp only [pure, Except.pure, Except.ok.injEq] at h
    subst h
    refine ⟨m, add, (pyGet_zero mult m).1 hm, ha, rfl, rfl, rfl, ?_⟩
    rw [mapM_ok_iff] at hls
    simp only [scaleLoads, List.forall₂_map_left_iff] at hls ⊢
    refine hls.imp ?_
    intro x x' hx
    obtain ⟨a, h1, h2⟩ := except_bind_ok.1 hx
    simp only [pure, Except.pure, Except.ok.injEq] at h2
    exact ⟨a, (pyGet_nat_iff _ _ _).1 h1, h2.symm⟩

/-- **C91.** The additional loads are those of the sheet of 2030, 2040 or 2050 for the second to fourth year, none for
the first year, and from the fifth year on an exception. -/
theorem C91_additions (ev : Int → Except PyErr (List Rat)) (noBus : Nat) :
    yearAdditions true ev noBus 0 = .ok (List.replicate noBus 0) ∧ yearAdditions true ev noBus 1 = ev 2030 ∧
    yearAdditions true ev noBus 2 = ev 2040 ∧ yearAdditions true ev noBus 3 = ev 2050 ∧
    (∀ year, 4 ≤ year → yearAdditions true ev noBus year = .error .index) ∧
    (∀ year, yearAdditions false ev noBus year = .ok (List.replicate noBus 0)) := by
  refine ⟨by simp [yearAdditions], by rfl, by rfl, by rfl, ?_, by simp [yearAdditions]⟩
  intro year hy
  unfold yearAdditions
  have h0 : year ≠ 0 := by omega
  simp only [if_true, ne_eq, h0, not_false_eq_true]
  have : pyGet ([2020, 2030, 2040, 2050] : List Int) (year : Int) = .error .index := by
    unfold pyGet
    simp only [Int.not_lt.2 (Int.natCast_nonneg year), if_false, Int.toNat_natCast]
    rw [List.getElem?_eq_none (by simpa using hy)]
  rw [this]
  rfl

/-- **C56 (whole function).** For a case whose tables agree with its taps, clusters with an entry for each branch and
no additional loads: all clusters and the empty one are tried in the order of their costs for each node of the tree, on
the loads scaled by the multiplier of the first bus, and the cluster stored for a node is the first one that works, with
its cost, in the sense of `FirstWorking`. -/
theorem C56_verification_partial (argsort : List Rat → List Nat) (hs : IsArgsort argsort) (base : VNet) (taps : List Rat)
    (ev : Int → Except PyErr (List Rat)) (opf : VNet → Bool) (clusters : List (List Rat)) (mult : List (List (List Rat)))
    (hne : clusters ≠ []) (ha : TablesAgree taps base) (hlen : ∀ c ∈ clusters, c.length = taps.length) (v : Verified)
    (h : clusterVerification argsort base taps false ev opf clusters mult = .ok v) :
    ∃ sorted, TriedInOrder clusters sorted ∧
    (∀ (y j : Nat) (row : List (List Rat)) (m : List Rat), mult[y]? = some row → row[j]? = some m → ∃ m0, m.head? = some m0 ∧
      ∀ c, FirstWorking taps opf sorted { base with loads := base.loads.map (fun x => ⟨x.bus, x.p * m0, x.q * m0⟩) } c →
        v.lines[nodeNo mult y j]? = some c.1 ∧ v.costs[nodeNo mult y j]? = some (some c.2)) ∧
    (v.failed = true ↔ ∃ (y j : Nat) (row : List (List Rat)) (m : List Rat) (m0 : Rat), mult[y]? = some row ∧ row[j]? = some m ∧
      m.head? = some m0 ∧
      NoneWorking taps opf sorted { base with loads := base.loads.map (fun x => ⟨x.bus, x.p * m0, x.q * m0⟩) }) := by
  obtain ⟨sorted, e1, ht⟩ := sortedClusters_spec argsort hs clusters hne
  obtain ⟨sorted', e2, -, -, h3, h4⟩ := C91_nodes argsort base taps false ev opf clusters mult v h
  rw [e1, Except.ok.injEq] at e2
  subst e2
  have hlen' : ∀ c ∈ sorted, c.1.length = taps.length := by
    intro c hc
    have := ht.all.mem_iff.1 (List.mem_map_of_mem hc)
    rcases List.mem_append.1 this with hm | hm
    · exact hlen _ hm
    · rw [List.mem_singleton] at hm
      rw [hm, List.length_replicate]
      obtain ⟨c0, cl, rfl⟩ := List.exists_cons_of_ne_nil hne
      simpa using hlen c0 (by simp)
  have hsc : ∀ m0 : Rat, TablesAgree taps { base with loads := base.loads.map (fun x => ⟨x.bus, x.p * m0, x.q * m0⟩) } :=
    fun m0 => ⟨ha.lines, ha.trafos, ha.buses⟩
  refine ⟨sorted, ht, ?_, ?_⟩
  · intro y j row m hy hj
    obtain ⟨net, q1, q2, -⟩ := h3 y j row m hy hj
    obtain ⟨m0, hm0, rfl⟩ := (C91_loads base ev y m net).1.1 q1
    refine ⟨m0, hm0, ?_⟩
    intro c hc
    exact q2 c (((C56_exact_partial taps opf sorted _ (hsc m0) hlen').1 c).2 hc)
  · rw [h4]
    constructor
    · rintro ⟨y, j, row, m, net, hy, hj, q1, q2⟩
      obtain ⟨m0, hm0, rfl⟩ := (C91_loads base ev y m net).1.1 q1
      exact ⟨y, j, row, m, m0, hy, hj, hm0, ((C56_exact_partial taps opf sorted _ (hsc m0) hlen').2).1 q2⟩
    · rintro ⟨y, j, row, m, m0, hy, hj, hm0, q⟩
      exact ⟨y, j, row, m, _, hy, hj, (C91_loads base ev y m _).1.2 ⟨m0, hm0, rfl⟩,
        ((C56_exact_partial taps opf sorted _ (hsc m0) hlen').2).2 q⟩

/-! ## C92: the report -/

theorem reportYears_spec (s : Verified) (nodes : List Nat) (hs : s.costs.length = s.lines.length) :
    ∀ (ys : List Int) (i : Nat) (r : ScenarioReport), i + ys.length ≤ nodes.length →
    (∀ k n, nodes[k]? = some n → k < i + ys.length → n < s.lines.length) →
    ∃ r', reportYears s nodes ys i r = .ok r' ∧ ∃ add : List YearReport, r'.years = r.years ++ add ∧ add.length = ys.length ∧
      (∀ k y, ys[k]? = some y → ∃ n l c, nodes[i + k]? = some n ∧ s.lines[n]? = some l ∧ s.costs[n]? = some c ∧
        add[k]? = some ⟨y, l, c⟩) ∧
      (∀ x, add.getLast? = some x → r'.total = x.cost) ∧ (add = [] → r'.total = r.total) := by
  intro ys
  induction ys with
  | nil => intro i r _ _; exact ⟨r, rfl, [], by simp, by simp, by simp, by simp, by simp⟩
  | cons y ys ih =>
    intro i r hlen hn
    simp only [List.length_cons] at hlen hn
    have hi : i < nodes.length := by omega
    have hn1 : nodes[i] < s.lines.length := hn i _ (List.getElem?_eq_getElem hi) (by omega)
    have hn2 : nodes[i] < s.costs.length := by omega
    obtain ⟨r', q1, add, q2, q3, q4, q5, q6⟩ := ih (i + 1)
      ⟨r.years ++ [⟨y, s.lines[nodes[i]], s.costs[nodes[i]]⟩], s.costs[nodes[i]]⟩ (by omega)
      (fun k n hk hlt => hn k n hk (by omega))
    refine ⟨r', ?_, ⟨y, s.lines[nodes[i]], s.costs[nodes[i]]⟩ :: add, ?_, by simp [q3], ?_, ?_, by simp⟩
    · simp only [reportYears, pyGet_ok nodes i hi, bind, Except.bind, pyGet_ok _ _ hn1, pyGet_ok _ _ hn2]
      exact q1
    · rw [q2]; simp
    · intro k z hk
      cases k with
      | zero =>
        simp only [List.getElem?_cons_zero, Option.some.injEq] at hk
        subst hk
        exact ⟨nodes[i], s.lines[nodes[i]], s.costs[nodes[i]], by simp, List.getElem?_eq_getElem hn1,
          List.getElem?_eq_getElem hn2, by simp⟩
      | succ k =>
        simp only [List.getElem?_cons_succ] at hk
        obtain ⟨n, l, c, a1, a2, a3, a4⟩ := q4 k z hk
        have e : i + (k + 1) = i + 1 + k := by omega
        exact ⟨n, l, c, by rw [e]; exact a1, a2, a3, by simpa using a4⟩
    · intro x hx
      cases add with
      | nil =>
        simp only [List.getLast?_singleton, Option.some.injEq] at hx
        rw [q6 rfl, ← hx]
      | cons a add =>
        rw [List.getLast?_cons_cons] at hx
        exact q5 x hx

/-- **C92.** For a plan of at most four years over a binary tree with as many years, the report of the first scenario
gives for each year the cluster and cost of the *first* node of the year (number 2^i − 1), that of the second scenario
those of the *last* node of the year (number 2^(i+1) − 2), and the total of a scenario is the cost of its last year. -/
theorem C92_report_partial (s : Verified) (yrs : List Int) (h4 : yrs.length ≤ 4) (h0 : yrs ≠ [])
    (h1 : s.lines.length = 2 ^ yrs.length - 1) (h2 : s.costs.length = 2 ^ yrs.length - 1) :
    ∃ a b, saveReport s yrs = .ok (a, b) ∧ a.years.length = yrs.length ∧ b.years.length = yrs.length ∧
      (∀ i y, yrs[i]? = some y → ∃ l c, s.lines[2 ^ i - 1]? = some l ∧ s.costs[2 ^ i - 1]? = some c ∧
        a.years[i]? = some ⟨y, l, c⟩) ∧
      (∀ i y, yrs[i]? = some y → ∃ l c, s.lines[2 ^ (i + 1) - 2]? = some l ∧ s.costs[2 ^ (i + 1) - 2]? = some c ∧
        b.years[i]? = some ⟨y, l, c⟩) ∧
      s.costs[2 ^ (yrs.length - 1) - 1]? = some a.total ∧ s.costs[2 ^ yrs.length - 2]? = some b.total := by
  have hl : s.costs.length = s.lines.length := by omega
  have hn : 1 ≤ yrs.length := List.length_pos_of_ne_nil h0
  have na : ∀ i, i < 4 → ([0, 1, 3, 7] : List Nat)[i]? = some (2 ^ i - 1) := by decide
  have nb : ∀ i, i < 4 → ([0, 2, 6, 14] : List Nat)[i]? = some (2 ^ (i + 1) - 2) := by decide
  have pw : ∀ i, i < yrs.length → 2 ^ (i + 1) ≤ 2 ^ yrs.length := fun i hi => Nat.pow_le_pow_right (by norm_num) hi
  obtain ⟨a, a1, adda, a2, a3, a4, a5, -⟩ := reportYears_spec s [0, 1, 3, 7] hl yrs 0 ⟨[], some 0⟩ (by simpa using h4) (by
    intro k n hk hlt
    rw [na k (by omega), Option.some.injEq] at hk
    have := pw k (by omega)
    have p1 : 1 ≤ 2 ^ k := Nat.one_le_two_pow
    rw [pow_succ] at this
    omega)
  obtain ⟨b, b1, addb, b2, b3, b4, b5, -⟩ := reportYears_spec s [0, 2, 6, 14] hl yrs 0 ⟨[], some 0⟩ (by simpa using h4) (by
    intro k n hk hlt
    rw [nb k (by omega), Option.some.injEq] at hk
    have := pw k (by omega)
    have p1 : 1 ≤ 2 ^ k := Nat.one_le_two_pow
    have p2 : 2 ^ (k + 1) = 2 ^ k * 2 := pow_succ 2 k
    omega)
  simp only [List.nil_append] at a2 b2
  have ga : ∀ i y, yrs[i]? = some y → ∃ l c, s.lines[2 ^ i - 1]? = some l ∧ s.costs[2 ^ i - 1]? = some c ∧
        a.years[i]? = some ⟨y, l, c⟩ := by
    intro i y hy
    have hi := (List.getElem?_eq_some_iff.1 hy).1
    obtain ⟨n, l, c, q1, q2, q3, q4⟩ := a4 i y hy
    rw [Nat.zero_add, na i (by omega), Option.some.injEq] at q1
    subst q1
    exact ⟨l, c, q2, q3, by rw [a2]; exact q4⟩
  have gb : ∀ i y, yrs[i]? = some y → ∃ l c, s.lines[2 ^ (i + 1) - 2]? = some l ∧ s.costs[2 ^ (i + 1) - 2]? = some c ∧
        b.years[i]? = some ⟨y, l, c⟩ := by
    intro i y hy
    have hi := (List.getElem?_eq_some_iff.1 hy).1
    obtain ⟨n, l, c, q1, q2, q3, q4⟩ := b4 i y hy
    rw [Nat.zero_add, nb i (by omega), Option.some.injEq] at q1
    subst q1
    exact ⟨l, c, q2, q3, by rw [b2]; exact q4⟩
  refine ⟨a, b, ?_, by rw [a2, a3], by rw [b2, b3], ga, gb, ?_, ?_⟩
  · simp only [saveReport, a1, b1, bind, Except.bind, pure, Except.pure]
  · obtain ⟨l, c, -, q2, q3⟩ := ga (yrs.length - 1) _ (List.getElem?_eq_getElem (by omega))
    rw [q2, Option.some.injEq]
    have : adda.getLast? = some ⟨yrs[yrs.length - 1], l, c⟩ := by
      rw [List.getLast?_eq_getElem?, a3]; exact a2 ▸ q3
    exact (a5 _ this).symm
  · obtain ⟨l, c, -, q2, q3⟩ := gb (yrs.length - 1) _ (List.getElem?_eq_getElem (by omega))
    rw [Nat.sub_add_cancel hn] at q2
    rw [q2, Option.some.injEq]
    have : addb.getLast? = some ⟨yrs[yrs.length - 1], l, c⟩ := by
      rw [List.getLast?_eq_getElem?, b3]; exact b2 ▸ q3
    exact (b5 _ this).symm

/-- **C92.** More than four years cannot be reported: the result is an IndexError. -/
theorem C92_more_years_violated (s : Verified) (yrs : List Int) (h : 4 < yrs.length) : saveReport s yrs = .error .index := by
  have hidx : ∀ {α : Type} (l : List α) (n : Nat) (e : PyErr), pyGet l (n : Int) = .error e → e = .index := by
    intro α l n e he
    unfold pyGet at he
    simp only [Int.not_lt.2 (Int.natCast_nonneg n), if_false, Int.toNat_natCast] at he
    cases hl : l[n]? with
    | none => rw [hl] at he; exact (Except.error.injEq .. ▸ he).symm
    | some a => rw [hl] at he; exact absurd he (by simp)
  have gen : ∀ (ys : List Int) (i : Nat) (r : ScenarioReport), 4 < i + ys.length → ys ≠ [] →
      reportYears s [0, 1, 3, 7] ys i r = .error .index := by
    intro ys
    induction ys with
    | nil => intro i r _ h; exact absurd rfl h
    | cons y ys ih =>
      intro i r hi _
      simp only [reportYears, bind, Except.bind]
      cases e1 : pyGet ([0, 1, 3, 7] : List Nat) (i : Int) with
      | error e => rw [hidx _ _ _ e1]
      | ok n =>
        simp only
        cases e2 : pyGet s.lines (n : Int) with
        | error e => rw [hidx _ _ _ e2]
        | ok l =>
          simp only
          cases e3 : pyGet s.costs (n : Int) with
          | error e => rw [hidx _ _ _ e3]
          | ok c =>
            simp only
            apply ih
            · simp only [List.length_cons] at hi; omega
            · rintro rfl
              have := (List.getElem?_eq_some_iff.1 ((pyGet_nat_iff _ _ _).1 e1)).1
              simp at this hi
              omega
  unfold saveReport
  rw [gen yrs 0 _ (by omega) (by rintro rfl; simp at h)]
  rfl

/-! ### costs along a scenario -/

theorem applyCluster_scale (taps : List Rat) (net : VNet) (c : List Rat) (m : Rat) :
    applyCluster taps (scaleLoads net m) c = (scaleLoads (applyCluster taps net c).1 m, (applyCluster taps net c).2) := by
  have hl : ∀ (net : VNet) (l : Nat) (x : Rat), vUpgradeLine (scaleLoads net m) l x = (vUpgradeLine net l x).map (fun n => scaleLoads n m) := by
    intro net l x
    unfold vUpgradeLine scaleLoads
    simp only
    cases net.lines[l]? with
    | none => rfl
    | some ln =>
      simp only
      cases net.busKv[ln.fromBus]? <;> rfl
  have ht : ∀ (net : VNet) (l : Nat) (x : Rat), vUpgradeTrafo (scaleLoads net m) l x = (vUpgradeTrafo net l x).map (fun n => scaleLoads n m) := by
    intro net l x
    unfold vUpgradeTrafo scaleLoads
    simp only
    cases net.trafos[l]? <;> rfl
  have g1 : ∀ (c : List Rat) (l : Nat) (net : VNet), upgradeLines c l (scaleLoads net m) =
      (scaleLoads (upgradeLines c l net).1 m, (upgradeLines c l net).2) := by
    intro c
    induction c with
    | nil => intro l net; rfl
    | cons x c ih =>
      intro l net
      simp only [upgradeLines, hl]
      cases vUpgradeLine net l x with
      | none => rfl
      | some n => exact ih (l + 1) n
  have g2 : ∀ (c taps : List Rat) (l t : Nat) (net : VNet), upgradeMixed c taps l t (scaleLoads net m) =
      (scaleLoads (upgradeMixed c taps l t net).1 m, (upgradeMixed c taps l t net).2) := by
    intro c
    induction c with
    | nil => intro taps l t net; simp [upgradeMixed]
    | cons x c ih =>
      intro taps l t net
      cases taps with
      | nil => rfl
      | cons tap taps =>
        simp only [upgradeMixed, hl, ht]
        by_cases h0 : tap = 0
        · simp only [h0, if_true]
          cases vUpgradeLine net l x with
          | none => rfl
          | some n => exact ih taps (l + 1) t n
        · simp only [h0, if_false]
          cases vUpgradeTrafo net t x with
          | none => rfl
          | some n => exact ih taps l (t + 1) n
  unfold applyCluster
  have : (scaleLoads net m).trafos = net.trafos := rfl
  rw [this]
  split
  · exact g1 c 0 net
  · exact g2 c taps 0 0 net

theorem applyCluster_loads (taps : List Rat) (net : VNet) (c : List Rat) : (applyCluster taps net c).1.loads = net.loads := by
  have g1 : ∀ (c : List Rat) (l : Nat) (net : VNet), (upgradeLines c l net).1.loads = net.loads := by
    intro c
    induction c with
    | nil => intro l net; rfl
    | cons x c ih =>
      intro l net
      simp only [upgradeLines]
      cases hu : vUpgradeLine net l x with
      | none => rfl
      | some n => exact (ih (l + 1) n).trans (vUpgradeLine_parts hu).2.1
  have g2 : ∀ (c taps : List Rat) (l t : Nat) (net : VNet), (upgradeMixed c taps l t net).1.loads = net.loads := by
    intro c
    induction c with
    | nil => intro taps l t net; simp [upgradeMixed]
    | cons x c ih =>
      intro taps l t net
      cases taps with
      | nil => rfl
      | cons tap taps =>
        simp only [upgradeMixed]
        by_cases h0 : tap = 0
        · simp only [h0, if_true]
          cases hu : vUpgradeLine net l x with
          | none => rfl
          | some n => exact (ih taps (l + 1) t n).trans (vUpgradeLine_parts hu).2.1
        · simp only [h0, if_false]
          cases hu : vUpgradeTrafo net t x with
          | none => rfl
          | some n =>
            refine (ih taps l (t + 1) n).trans ?_
            unfold vUpgradeTrafo at hu
            split at hu
            · exact absurd hu (by simp)
            · simp only [Option.some.injEq] at hu; rw [← hu]
  unfold applyCluster
  split
  · exact g1 c 0 net
  · exact g2 c taps 0 0 net

/-- if the OPF converges for loads times `b`, it converges for loads times any smaller factor, whatever the limits are -/
def EasierWithLessLoad (loads : List VLoad) (opf : VNet → Bool) : Prop :=
  ∀ (N : VNet) (a b : Rat), N.loads = loads → a ≤ b →
    opf { N with loads := loads.map (fun x => ⟨x.bus, x.p * b, x.q * b⟩) } = true →
    opf { N with loads := loads.map (fun x => ⟨x.bus, x.p * a, x.q * a⟩) } = true

theorem verifyClusters_mem {taps : List Rat} {opf : VNet → Bool} : ∀ {cs : List (List Rat × Rat)} {net : VNet} {c : List Rat × Rat},
    verifyClusters taps opf cs net = some c → c ∈ cs := by
  intro cs
  induction cs with
  | nil => intro net c h; simp [verifyClusters] at h
  | cons d cs ih =>
    intro net c h
    simp only [verifyClusters] at h
    split at h
    · simp only [Option.some.injEq] at h; simp [h]
    · exact List.mem_cons_of_mem _ (ih h)

theorem verifyClusters_mono (taps : List Rat) (opf : VNet → Bool) (loads : List VLoad) (he : EasierWithLessLoad loads opf)
    (a b : Rat) (hab : a ≤ b) : ∀ (cs : List (List Rat × Rat)) (net : VNet) (d : List Rat × Rat), net.loads = loads →
    cs.Pairwise (fun p q => p.2 ≤ q.2) → verifyClusters taps opf cs (scaleLoads net b) = some d →
    ∃ c, verifyClusters taps opf cs (scaleLoads net a) = some c ∧ c.2 ≤ d.2 := by
  intro cs
  induction cs with
  | nil => intro net d _ _ h; simp [verifyClusters] at h
  | cons x cs ih =>
    intro net d hl hp h
    rw [List.pairwise_cons] at hp
    simp only [verifyClusters, applyCluster_scale] at h ⊢
    have hl' := (applyCluster_loads taps net x.1).trans hl
    have hop : opf (scaleLoads (applyCluster taps net x.1).1 b) = true → opf (scaleLoads (applyCluster taps net x.1).1 a) = true := by
      intro ho
      have := he (applyCluster taps net x.1).1 a b hl' hab
      unfold scaleLoads at ho ⊢
      rw [hl'] at ho ⊢
      exact this ho
    by_cases h1 : (!(applyCluster taps net x.1).2 && opf (scaleLoads (applyCluster taps net x.1).1 b)) = true
    · rw [if_pos h1, Option.some.injEq] at h
      subst h
      rw [Bool.and_eq_true] at h1
      refine ⟨x, ?_, le_refl _⟩
      rw [if_pos (by rw [Bool.and_eq_true]; exact ⟨h1.1, hop h1.2⟩)]
    · rw [if_neg h1] at h
      by_cases h2 : (!(applyCluster taps net x.1).2 && opf (scaleLoads (applyCluster taps net x.1).1 a)) = true
      · rw [if_pos h2]
        exact ⟨x, rfl, hp.1 d (verifyClusters_mem h)⟩
      · rw [if_neg h2]
        exact ih _ d hl' hp.2 h

/-- **C92.** If less load never makes the OPF diverge, then of two nodes of the tree the one with the smaller multiplier
has an investment of at most the cost of the other (without additional loads).  So for multipliers that do not decrease
along a scenario the costs in the report do not decrease, and the total, which is the cost of the last year, is the
largest of them. -/
theorem C92_costs_monotone_partial (argsort : List Rat → List Nat) (hs : IsArgsort argsort) (base : VNet) (taps : List Rat)
    (ev : Int → Except PyErr (List Rat)) (opf : VNet → Bool) (he : EasierWithLessLoad base.loads opf)
    (clusters : List (List Rat)) (mult : List (List (List Rat))) (v : Verified) (hne : clusters ≠ [])
    (h : clusterVerification argsort base taps false ev opf clusters mult = .ok v) (hf : v.failed = false)
    (y j y' j' : Nat) (row row' : List (List Rat)) (m m' : List Rat) (m0 m0' : Rat)
    (hy : mult[y]? = some row) (hj : row[j]? = some m) (hm : m.head? = some m0)
    (hy' : mult[y']? = some row') (hj' : row'[j']? = some m') (hm' : m'.head? = some m0') (hle : m0 ≤ m0') :
    ∃ c c', v.costs[nodeNo mult y j]? = some (some c) ∧ v.costs[nodeNo mult y' j']? = some (some c') ∧ c ≤ c' := by
  obtain ⟨sorted, e1, ht⟩ := sortedClusters_spec argsort hs clusters hne
  obtain ⟨sorted', e2, -, -, h3, h4⟩ := C91_nodes argsort base taps false ev opf clusters mult v h
  rw [e1, Except.ok.injEq] at e2
  subst e2
  have hnet : ∀ (yy : Nat) (mm : List Rat) (k : Rat), mm.head? = some k → nodeNet base false ev yy mm = .ok (scaleLoads base k) :=
    fun yy mm k hk => (C91_loads base ev yy mm _).1.2 ⟨k, hk, rfl⟩
  obtain ⟨n1, q1, q2, -⟩ := h3 y j row m hy hj
  obtain ⟨n2, r1, r2, -⟩ := h3 y' j' row' m' hy' hj'
  rw [hnet y m m0 hm, Except.ok.injEq] at q1
  rw [hnet y' m' m0' hm', Except.ok.injEq] at r1
  subst q1
  subst r1
  cases hd : verifyClusters taps opf sorted (scaleLoads base m0') with
  | none =>
    exfalso
    have := h4.2 ⟨y', j', row', m', _, hy', hj', hnet y' m' m0' hm', hd⟩
    rw [hf] at this
    exact absurd this (by simp)
  | some d =>
    obtain ⟨c, hc, hcd⟩ := verifyClusters_mono taps opf base.loads he m0 m0' hle sorted base d rfl ht.order hd
    exact ⟨c.2, d.2, (q2 c hc).2, (r2 d hd).2, hcd⟩

/-- an argsort by insertion -/
def vSort (l : List Rat) : List Nat := (List.range l.length).insertionSort (fun i j => l.getD i 0 ≤ l.getD j 0)

theorem vSort_ok : IsArgsort vSort := by
  intro l
  refine ⟨List.perm_insertionSort _ _, ?_⟩
  rw [List.pairwise_map]
  have : Std.Total (fun i j : Nat => l.getD i 0 ≤ l.getD j 0) := ⟨fun i j => le_total _ _⟩
  have : IsTrans Nat (fun i j : Nat => l.getD i 0 ≤ l.getD j 0) := ⟨fun i j k h1 h2 => le_trans h1 h2⟩
  exact List.pairwise_insertionSort _ _

/-- the load has to fit on the first line -/
def vFits : VNet → Bool := fun n => decide ((n.loads.map (·.p)).sum ≤ (n.lines.head?.map (·.maxI)).getD 0)

def vNet1 : VNet := ⟨[1], [⟨0, 1, 0⟩], [⟨0, 1⟩], []⟩

/-- the hypotheses of `C56_verification_partial` and `C92_costs_monotone_partial` can be met, with a rising cost -/
theorem C92_witness : TablesAgree [0] vNet1 ∧ EasierWithLessLoad vNet1.loads vFits ∧
    clusterVerification vSort vNet1 [0] false (fun _ => .error .runtime) vFits [[5], [1]] [[[1]], [[2], [3]]] =
      .ok ⟨[[0], [1], [5]], [some 0, some 60000, some 300000], false⟩ := by
  refine ⟨⟨by decide +kernel, by decide +kernel, by decide +kernel⟩, ?_, by decide +kernel⟩
  intro N a b _ hab h
  simp only [vFits, vNet1, List.map_cons, List.map_nil, List.sum_cons, List.sum_nil, decide_eq_true_eq] at h ⊢
  linarith

/-- **C92 (violated).** If the load falls, the investment is reported to be removed again and the total is that of the
last year, below what was invested before: the total is not the cost of the investments of the scenario. -/
theorem C92_total_violated : ∃ (argsort : List Rat → List Nat) (base : VNet) (taps : List Rat) (opf : VNet → Bool)
    (clusters : List (List Rat)) (mult : List (List (List Rat))) (v : Verified) (a b : ScenarioReport),
    IsArgsort argsort ∧ TablesAgree taps base ∧ EasierWithLessLoad base.loads opf ∧
    clusterVerification argsort base taps false (fun _ => .error .runtime) opf clusters mult = .ok v ∧ v.failed = false ∧
    saveReport v [2020, 2030] = .ok (a, b) ∧ a.years = [⟨2020, [1], some 60000⟩, ⟨2030, [0], some 0⟩] ∧ a.total = some 0 :=
  ⟨vSort, vNet1, [0], vFits, [[1]], [[[2]], [[1], [2]]], ⟨[[1], [0], [1]], [some 60000, some 0, some 60000], false⟩, _, _,
    vSort_ok, C92_witness.1, C92_witness.2.1, by decide +kernel, rfl, rfl, rfl, rfl⟩

/-! ## C93: the command -/

/-- **C93 (violated).** A set of clusters given by the user is not what is verified: whatever (non-empty) clusters are
given, the output is the same, as long as the document can be built for them. -/
theorem C93_given_clusters_violated (argsort : List Rat → List Nat) (base : VNet) (taps : List Rat) (useEv : Bool)
    (ev : Int → Except PyErr (List Rat)) (opf : VNet → Bool) (yrs : List Int)
    (screen : Except PyErr (List (List Rat) × List (List (List Rat)))) (document : List (List Rat) → Except PyErr Unit)
    (c c' : List (List Rat)) (files : StageFiles) (hc : c ≠ []) (hc' : c' ≠ []) (hd : document c = .ok ())
    (hd' : document c' = .ok ()) :
    attestCommand argsort base taps useEv ev opf yrs screen document (some c) files =
      attestCommand argsort base taps useEv ev opf yrs screen document (some c') files := by
  simp only [attestCommand, bind, Except.bind, hc, hc', if_false, hd, hd']

/-- **C93.** Without the files of an earlier run, giving clusters raises an exception. -/
theorem C93_without_files_violated (argsort : List Rat → List Nat) (base : VNet) (taps : List Rat) (useEv : Bool)
    (ev : Int → Except PyErr (List Rat)) (opf : VNet → Bool) (yrs : List Int)
    (screen : Except PyErr (List (List Rat) × List (List (List Rat)))) (document : List (List Rat) → Except PyErr Unit)
    (c : List (List Rat)) (hc : c ≠ []) (r : CommandOutput × StageFiles) :
    attestCommand argsort base taps useEv ev opf yrs screen document (some c) {} ≠ .ok r := by
  simp only [attestCommand, bind, Except.bind, hc, if_false]
  cases document c <;> simp

/-- **C93.** A run with given clusters after a run without them repeats the output of the earlier run. -/
theorem C93_repeats_earlier_violated (argsort : List Rat → List Nat) (base : VNet) (taps : List Rat) (useEv : Bool)
    (ev : Int → Except PyErr (List Rat)) (opf : VNet → Bool) (yrs : List Int)
    (screen : Except PyErr (List (List Rat) × List (List (List Rat)))) (document : List (List Rat) → Except PyErr Unit)
    (files files1 : StageFiles) (out : CommandOutput) (c : List (List Rat)) (hc : c ≠ []) (hd : document c = .ok ())
    (h : attestCommand argsort base taps useEv ev opf yrs screen document none files = .ok (out, files1))
    (ho : out ≠ .aborted) :
    attestCommand argsort base taps useEv ev opf yrs screen document (some c) files1 = .ok (out, files1) := by
  simp only [attestCommand, bind, Except.bind] at h ⊢
  simp only [hc, if_false, hd]
  cases hs : screen with
  | error e => rw [hs] at h; exact absurd h (by simp)
  | ok s =>
    rw [hs] at h
    simp only at h
    split at h
    · simp only [Except.ok.injEq, Prod.mk.injEq] at h
      exact absurd h.1.symm ho
    · cases hds : document s.1 with
      | error e => rw [hds] at h; exact absurd h (by simp)
      | ok u =>
        rw [hds] at h
        simp only at h
        cases hv : clusterVerification argsort base taps useEv ev opf s.1 s.2 with
        | error e => rw [hv] at h; exact absurd h (by simp)
        | ok v =>
          rw [hv] at h
          simp only at h
          split at h
          · rename_i hf
            simp only [Except.ok.injEq, Prod.mk.injEq] at h
            obtain ⟨rfl, rfl⟩ := h
            simp only [hv, hf, if_true]
          · rename_i hf
            cases hr : saveReport v yrs with
            | error e => rw [hr] at h; exact absurd h (by simp)
            | ok r =>
              rw [hr] at h
              simp only [Except.ok.injEq, Prod.mk.injEq] at h
              obtain ⟨rfl, rfl⟩ := h
              simp only [hv, hf, hr]
              rfl

/-- **C93.** Without given clusters the clusters of the screening are verified on the multipliers it used: the output says
that the planning was aborted exactly if the screening proposes nothing, it is the warning exactly if the verification
fails for some node, and otherwise the report of the verification. -/
theorem C93_screened_partial (argsort : List Rat → List Nat) (base : VNet) (taps : List Rat) (useEv : Bool)
    (ev : Int → Except PyErr (List Rat)) (opf : VNet → Bool) (yrs : List Int) (cs : List (List Rat))
    (mult : List (List (List Rat))) (document : List (List Rat) → Except PyErr Unit) (files files1 : StageFiles)
    (out : CommandOutput)
    (h : attestCommand argsort base taps useEv ev opf yrs (.ok (cs, mult)) document none files = .ok (out, files1)) :
    files1 = ⟨some cs, some mult⟩ ∧ (out = .aborted ↔ cs = []) ∧
    (cs ≠ [] → ∃ v, clusterVerification argsort base taps useEv ev opf cs mult = .ok v ∧
      (out = .warning ↔ v.failed = true) ∧
      (∀ a b, out = .report a b ↔ v.failed = false ∧ saveReport v yrs = .ok (a, b))) := by
  simp only [attestCommand, bind, Except.bind] at h
  split at h
  · rename_i h0
    simp only [Except.ok.injEq, Prod.mk.injEq] at h
    obtain ⟨rfl, rfl⟩ := h
    exact ⟨rfl, by simp [h0], fun hn => absurd h0 hn⟩
  · rename_i h0
    cases hds : document cs with
    | error e => rw [hds] at h; exact absurd h (by simp)
    | ok u =>
      rw [hds] at h
      simp only at h
      cases hv : clusterVerification argsort base taps useEv ev opf cs mult with
      | error e => rw [hv] at h; exact absurd h (by simp)
      | ok v =>
        rw [hv] at h
        simp only at h
        split at h
        · rename_i hf
          simp only [Except.ok.injEq, Prod.mk.injEq] at h
          obtain ⟨rfl, rfl⟩ := h
          exact ⟨rfl, by simp [h0], fun _ => ⟨v, rfl, by simp [hf], by simp [hf]⟩⟩
        · rename_i hf
          cases hr : saveReport v yrs with
          | error e => rw [hr] at h; exact absurd h (by simp)
          | ok r =>
            rw [hr] at h
            simp only [Except.ok.injEq, Prod.mk.injEq] at h
            obtain ⟨rfl, rfl⟩ := h
            refine ⟨rfl, by simp [h0], fun _ => ⟨v, rfl, by simp [hf], ?_⟩⟩
            intro a b
            rw [hr]
            simp only [CommandOutput.report.injEq, Except.ok.injEq, Prod.ext_iff]
            simp [hf]

/-- both cases occur: a run reports its clusters, and a second run that is given another cluster repeats them -/
theorem C93_witness :
    attestCommand vSort vNet1 [0] false (fun _ => .error .runtime) vFits [2020] (.ok ([[5], [1]], [[[2]]])) (fun _ => .ok ())
      none {} = .ok (.report ⟨[⟨2020, [1], some 60000⟩], some 60000⟩ ⟨[⟨2020, [1], some 60000⟩], some 60000⟩,
        ⟨some [[5], [1]], some [[[2]]]⟩) ∧
    attestCommand vSort vNet1 [0] false (fun _ => .error .runtime) vFits [2020] (.error .runtime) (fun _ => .ok ())
      (some [[77]]) ⟨some [[5], [1]], some [[[2]]]⟩ =
      .ok (.report ⟨[⟨2020, [1], some 60000⟩], some 60000⟩ ⟨[⟨2020, [1], some 60000⟩], some 60000⟩,
        ⟨some [[5], [1]], some [[[2]]]⟩) := by
  exact ⟨by decide +kernel, by decide +kernel⟩

end Pyensys
