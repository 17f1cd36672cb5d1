import Verif.Props.HydroFlow

/-!
# Hydrology: shares (C138), flows and volumes (C139), limits and penalty (C140), ramps (C141), storage (C142), links (C143), outputs (C144)
-/

namespace Pyensys

/-! ## shares -/

theorem share_chain (sh up : Nat → Rat) : ∀ (l : List Nat), (∀ p ∈ l.zip (l.drop 1), sh p.1 ≠ 0 ∧ up p.1 * sh p.2 = up p.2 * sh p.1) →
    ∀ a ∈ l, ∀ b ∈ l, up a * sh b = up b * sh a := by
  intro l
  induction l with
  | nil => intro _ a ha; simp at ha
  | cons x l ih =>
    intro h
    cases l with
    | nil =>
      intro a ha b hb
      simp only [List.mem_singleton] at ha hb
      rw [ha, hb]
    | cons y l =>
      have hxy := h (x, y) (by simp)
      have hrest := ih (fun p hp => h p (by
        simp only [List.drop_one, List.tail_cons, List.zip_cons_cons, List.mem_cons] at hp ⊢
        exact Or.inr hp))
      have hx : ∀ b ∈ y :: l, up x * sh b = up b * sh x := by
        intro b hb
        by_cases hy : sh y = 0
        · cases l with
          | nil =>
            simp only [List.mem_singleton] at hb
            subst hb
            exact hxy.2
          | cons z l => exact absurd hy (h (y, z) (by simp)).1
        · have h1 := hrest y List.mem_cons_self b hb
          apply mul_right_cancel₀ hy
          calc up x * sh b * sh y = (up x * sh y) * sh b := by ring
            _ = (up y * sh x) * sh b := by rw [hxy.2]
            _ = (up y * sh b) * sh x := by ring
            _ = (up b * sh y) * sh x := by rw [h1]
            _ = up b * sh x * sh y := by ring
      intro a ha b hb
      rcases List.mem_cons.1 ha with rfl | _
      · rcases List.mem_cons.1 hb with rfl | hb
        · rfl
        · exact hx b hb
      · rename_i ha'
        rcases List.mem_cons.1 hb with rfl | hb
        · exact (hx a ha').symm
        · exact hrest a ha' b hb

/-- the share of a river -/
def HyModel.shareOf (m : HyModel) (b : Nat) : Rat := ((m.rivers[b]?).map (·.share)).getD 0

/-- consecutive rivers of a node are a pair of the model -/
theorem HyInit.sharePairs {c : HyConf} {m : HyModel} (i : HyInit c m) (hu : HyUser c) (node : Nat) (hn : 0 < node ∧ node ≤ m.nodes) :
    ∀ p ∈ (riversFrom m.rivers node).zip ((riversFrom m.rivers node).drop 1), m.shareOf p.1 ≠ 0 ∧ (p.1, p.2, m.shareOf p.2 / m.shareOf p.1) ∈ m.shares := by
  intro p hp
  obtain ⟨net, h1, h2, h3, h4⟩ := C136_network_partial m.rivers m.nodes (i.nodesIn hu) (i.ends hu)
  rw [i.net] at h1
  cases h1
  obtain ⟨ro, _, a1, _, a3, _⟩ := h4 (node - 1) (by omega)
  have e : node - 1 + 1 = node := by omega
  rw [e] at a3
  have hsh := i.shares
  unfold hyShares at hsh
  rw [List.take_of_length_le (by omega)] at hsh
  have hmem : p ∈ m.net.outTab.flatMap (fun c => let l := rowRivers m.net.n2b1 c; l.zip (l.drop 1)) := by
    rw [List.mem_flatMap]
    refine ⟨ro, List.mem_of_getElem? a1, ?_⟩
    simp only
    rw [a3]
    exact hp
  obtain ⟨y, y1, y2⟩ := (mapM_ok_forall _ _ _ hsh).2 p hmem
  unfold sharePair at y2
  rw [except_bind_ok] at y2
  obtain ⟨ra, r1, y2⟩ := y2
  rw [except_bind_ok] at y2
  obtain ⟨rb, r2, y2⟩ := y2
  rw [npGet_iff] at r1 r2
  split at y2
  · cases y2
  · rename_i hz
    cases y2
    unfold HyModel.shareOf
    rw [r1, r2]
    exact ⟨hz, y1⟩

/-- **C138**: in every solution the water that leaves a node by its rivers is divided in proportion to their shares: each river takes its share of the total. -/
theorem C138_shares_partial (c : HyConf) (m : HyModel) (hm : hyInitialise c = .ok m) (hu : HyUser c) (v : HyVars) (hf : m.Feasible v) (xt xh : Nat)
    (ht : xt < c.noTime) (hh : xh < c.number) (node : Nat) (hn : 0 < node ∧ node ≤ m.nodes) (a : Nat) (ha : a ∈ riversFrom m.rivers node) :
    (∀ b ∈ riversFrom m.rivers node, v.up (m.rivers.length * xh + a) xt * m.shareOf b = v.up (m.rivers.length * xh + b) xt * m.shareOf a) ∧
    v.up (m.rivers.length * xh + a) xt * ((riversFrom m.rivers node).map m.shareOf).sum =
      m.shareOf a * ((riversFrom m.rivers node).map (fun b => v.up (m.rivers.length * xh + b) xt)).sum := by
  have init := hyInitialise_init hm
  have hpair : ∀ b ∈ riversFrom m.rivers node, v.up (m.rivers.length * xh + a) xt * m.shareOf b = v.up (m.rivers.length * xh + b) xt * m.shareOf a := by
    intro b hb
    refine share_chain m.shareOf (fun b => v.up (m.rivers.length * xh + b) xt) (riversFrom m.rivers node) ?_ a ha b hb
    intro p hp
    obtain ⟨h1, h2⟩ := init.sharePairs hu node hn p hp
    refine ⟨h1, ?_⟩
    have := hf.weights _ h2 xt (by rw [init.conf]; exact ht) xh (by rw [init.conf]; exact hh)
    simp only [HyModel.conRiver] at this ⊢
    rw [← this]
    field_simp
  refine ⟨hpair, ?_⟩
  rw [← sum_map_mul_left', ← sum_map_mul_left']
  congr 1
  apply List.map_congr_left
  intro b hb
  rw [hpair b hb]
  ring

/-- **C138 violated**: a river that gets no water can only be the last one of its node; a share of zero before it makes the model fail. -/
theorem C138_zero_violated (c : HyConf) (m : HyModel) (hm : hyInitialise c = .ok m) (hu : HyUser c) (node : Nat) (hn : 0 < node ∧ node ≤ m.nodes)
    (l1 l2 : List Nat) (a : Nat) (hl : riversFrom m.rivers node = l1 ++ a :: l2) (hz : m.shareOf a = 0) : l2 = [] := by
  cases l2 with
  | nil => rfl
  | cons b l2 =>
    exfalso
    have hp : (a, b) ∈ (riversFrom m.rivers node).zip ((riversFrom m.rivers node).drop 1) := by
      rw [hl]
      clear hl
      induction l1 with
      | nil => simp
      | cons x l1 ih =>
        cases l1 with
        | nil => simp
        | cons y l1 =>
          simp only [List.cons_append, List.drop_one, List.tail_cons, List.zip_cons_cons, List.mem_cons] at ih ⊢
          exact Or.inr ih
    exact ((hyInitialise_init hm).sharePairs hu node hn (a, b) hp).1 hz

/-! ## flows and volumes -/

/-- a river whose flow and speed can vary -/
structure RiverOk (r : River) (t : Rat) : Prop where
  flow : 0 ≤ r.qmin ∧ r.qmin < r.qmax
  speed : 0 ≤ r.smin ∧ 0 < r.smax
  length : 0 < r.length
  time : 0 < t

theorem fLinear_closed (r : River) (t : Rat) (h : r.qmin < r.qmax) : fLinear r t = (hyWeight r t, (1 - hyWeight r t) * r.qmin, 1 - hyWeight r t) := by
  have hne : r.qmax - r.qmin ≠ 0 := (sub_pos.2 h).ne'
  unfold fLinear
  simp only
  have e0 : (r.qmax * hyWeight r t + (1 - hyWeight r t) * r.qmin - r.qmin * hyWeight2 r t - (1 - hyWeight2 r t) * r.qmin) / (r.qmax - r.qmin) = hyWeight r t := by
    rw [div_eq_iff hne]
    ring
  have e3 : (r.qmax * hyWeight r t + (1 - hyWeight r t) * r.qmax - r.qmin * hyWeight2 r t - (1 - hyWeight2 r t) * r.qmax) / (r.qmax - r.qmin) = hyWeight2 r t := by
    rw [div_eq_iff hne]
    ring
  rw [e0, e3]
  refine Prod.ext rfl (Prod.ext ?_ ?_)
  · simp only
    ring
  · simp only
    rw [div_eq_iff hne]
    ring

theorem hyWeight_range (r : River) (t : Rat) (h : RiverOk r t) : 0 ≤ hyWeight r t ∧ hyWeight r t ≤ 1 := by
  obtain ⟨_, ⟨hs0, hs1⟩, hL, ht⟩ := h
  have hst : 0 < r.smax * t := mul_pos hs1 ht
  unfold hyWeight
  split
  · -- no minimum speed
    simp only
    have hd0 : 0 < min (r.smax * t) r.length := lt_min hst hL
    have hd1 : min (r.smax * t) r.length ≤ r.smax * t := min_le_left _ _
    have hd2 : min (r.smax * t) r.length ≤ r.length := min_le_right _ _
    generalize min (r.smax * t) r.length = d at hd0 hd1 hd2
    have e : 1 / 2 * (d * d) / t / r.smax = d * d / (2 * (r.smax * t)) := by
      field_simp
    rw [e]
    have hq : d * d / (2 * (r.smax * t)) ≤ d / 2 := by
      rw [div_le_div_iff₀ (by linarith) (by norm_num)]
      nlinarith
    have hq0 : 0 ≤ d * d / (2 * (r.smax * t)) := div_nonneg (by nlinarith) (by linarith)
    constructor
    · exact div_nonneg (by linarith) hL.le
    · rw [div_le_one hL]
      linarith
  · rename_i hne
    have hsm : 0 < r.smin * t := lt_of_le_of_ne (mul_nonneg hs0 ht.le) (Ne.symm hne)
    simp only
    have hb1 : (1 : Rat) ≤ ((r.length / (r.smin * t)).ceil : Rat) := by
      have h1 := Rat.le_ceil (x := r.length / (r.smin * t))
      have h2 : (0 : Rat) < ((r.length / (r.smin * t)).ceil : Rat) := lt_of_lt_of_le (div_pos hL hsm) h1
      have h3 : 0 < (r.length / (r.smin * t)).ceil := by exact_mod_cast h2
      exact_mod_cast h3
    generalize ((r.length / (r.smin * t)).ceil : Rat) = b at hb1
    have hb0 : 0 < b := by linarith
    have hdl : 0 < r.length / b := div_pos hL hb0
    generalize r.length / b = dl at hdl
    -- the number of buckets reached
    have hfl0 : (0 : Rat) ≤ ((r.smax * t / dl).floor : Rat) := by
      have : 0 ≤ (r.smax * t / dl).floor := by
        rw [Rat.le_floor_iff]
        exact (div_pos hst hdl).le
      exact_mod_cast this
    have hfl1 : ((r.smax * t / dl).floor : Rat) ≤ r.smax * t / dl := Rat.floor_le _
    have hk0 : 0 ≤ (r.smax * t / dl).floor := by exact_mod_cast hfl0
    have hint : ((r.smax * t / dl).floor : Rat) = 0 ∨ 1 ≤ ((r.smax * t / dl).floor : Rat) := by
      rcases Int.lt_or_le 0 (r.smax * t / dl).floor with h | h
      · right
        exact_mod_cast h
      · left
        have : (r.smax * t / dl).floor = 0 := by omega
        exact_mod_cast this
    generalize ((r.smax * t / dl).floor : Rat) = F at hfl0 hfl1 hint
    have hk : 0 ≤ min b F ∧ min b F ≤ b ∧ min b F ≤ F ∧ (min b F = 0 ∨ 1 ≤ min b F) := by
      refine ⟨le_min hb0.le hfl0, min_le_left _ _, min_le_right _ _, ?_⟩
      rcases hint with h | h
      · left
        rw [h]
        exact min_eq_right hb0.le
      · right
        exact le_min hb1 h
    generalize min b F = k at hk
    obtain ⟨k0, k1, k2, k3⟩ := hk
    have hdk : dl * k ≤ r.smax * t := by
      have : k ≤ r.smax * t / dl := le_trans k2 hfl1
      rw [le_div_iff₀ hdl] at this
      linarith
    have e : k / b - dl * k * (k + 1) / 2 / r.smax / t / b = (k - dl * k * (k + 1) / (2 * (r.smax * t))) / b := by
      field_simp
    rw [e]
    have hx0 : 0 ≤ dl * k * (k + 1) / (2 * (r.smax * t)) := div_nonneg (mul_nonneg (mul_nonneg hdl.le k0) (by linarith)) (by linarith)
    have hx1 : dl * k * (k + 1) / (2 * (r.smax * t)) ≤ k := by
      rcases k3 with h | h
      · rw [h]
        simp
      · have h2 : dl * k * (k + 1) / (2 * (r.smax * t)) ≤ (k + 1) / 2 := by
          rw [div_le_div_iff₀ (by linarith) (by norm_num)]
          nlinarith
        linarith
    constructor
    · exact div_nonneg (by linarith) hb0.le
    · rw [div_le_one hb0]
      linarith

theorem qLinear_slope (r : River) (t dt : Rat) (h : RiverOk r t) (hdt : 0 < dt) : 0 < (qLinear r t dt).1 := by
  obtain ⟨w0, w1⟩ := hyWeight_range r t h
  obtain ⟨⟨hq0, hq1⟩, ⟨hs0, hs1⟩, hL, ht⟩ := h
  have hst : 0 < r.smax * t := mul_pos hs1 ht
  unfold qLinear
  simp only
  rw [fLinear_closed r t hq1]
  simp only
  generalize hyWeight r t = w at w0 w1
  apply div_pos (sub_pos.2 hq1)
  apply mul_pos
  · rcases eq_or_lt_of_le w0 with h0 | h0
    · apply lt_max_of_lt_right
      rw [← h0]
      apply mul_pos _ hdt
      linarith
    · apply lt_max_of_lt_left
      apply mul_pos _ hdt
      have : 0 < r.qmax * w := mul_pos (by linarith) h0
      nlinarith
  · split
    · norm_num
    · exact div_pos (div_pos hL hs1) ht

/-- the flow that belongs to a volume of water in a river: the minimum flow at the minimum volume, and growing with the volume -/
def riverFlow (r : River) (slope vol : Rat) : Rat := r.qmin + slope * (vol - r.vmin)

/-- **C139**: the flow at the end of a river.  In every solution it is a weighted average of the flow at its beginning and of a flow that grows with the volume of water in the
river and is the minimum flow at the minimum volume, less the slack of the river; the weight is between 0 and 1 and the growth positive, both depend only on the river and the
time step. -/
theorem C139_average_partial (c : HyConf) (m : HyModel) (hm : hyInitialise c = .ok m) (xr : Nat) (r : River) (hr : m.rivers[xr]? = some r) (hok : RiverOk r c.seconds)
    (hdt : 0 < m.dt) : ∃ w slope : Rat, 0 ≤ w ∧ w ≤ 1 ∧ 0 < slope ∧ ∀ (v : HyVars), m.Feasible v → ∀ xt xh, xt < c.noTime → xh < c.number →
      v.down (m.rivers.length * xh + xr) xt = w * v.up (m.rivers.length * xh + xr) xt + (1 - w) * riverFlow r slope (v.soc (m.rivers.length * xh + xr) xt) - m.slack v xr xt xh := by
  have init := hyInitialise_init hm
  obtain ⟨w0, w1⟩ := hyWeight_range r c.seconds hok
  refine ⟨hyWeight r c.seconds, (qLinear r c.seconds m.dt).1, w0, w1, qLinear_slope r c.seconds m.dt hok hdt, ?_⟩
  intro v hf xt xh ht hh
  have := hf.downTime xr r hr xt (by rw [init.conf]; exact ht) xh (by rw [init.conf]; exact hh)
  have e2 : (qLinear r c.seconds m.dt).2 = r.qmin - (qLinear r c.seconds m.dt).1 * r.vmin := rfl
  unfold HyModel.downTime at this
  rw [init.conf] at this
  simp only [HyModel.conRiver] at this
  rw [this, e2, fLinear_closed r c.seconds hok.flow.2]
  unfold riverFlow
  simp only
  ring

/-! ## limits and penalty -/

theorem single_le_sum' {α : Type} (l : List α) (f : α → Rat) (h : ∀ a ∈ l, 0 ≤ f a) (a : α) (ha : a ∈ l) : f a ≤ (l.map f).sum := by
  induction l with
  | nil => simp at ha
  | cons b l ih =>
    rw [List.map_cons, List.sum_cons]
    have hb := h b List.mem_cons_self
    have hs : 0 ≤ (l.map f).sum := List.sum_nonneg (fun x hx => by
      obtain ⟨y, hy, rfl⟩ := List.mem_map.1 hx
      exact h y (List.mem_cons_of_mem _ hy))
    rcases List.mem_cons.1 ha with rfl | ha
    · linarith
    · have := ih (fun x hx => h x (List.mem_cons_of_mem _ hx)) ha
      linarith

/-- **C140**: limits of flows.  In every solution each excess of a flow over the maximum of its river, and each lack below the minimum, at either end of the river and in every
period and scenario, costs at least 1000 times the penalty: a solution without penalty keeps all limits. -/
theorem C140_limits_partial (c : HyConf) (m : HyModel) (hm : hyInitialise c = .ok m) (hp : 0 < c.penalty) (v : HyVars) (hf : m.Feasible v) (xr : Nat) (r : River)
    (hr : m.rivers[xr]? = some r) (xt xh : Nat) (ht : xt < c.noTime) (hh : xh < c.number) :
    ((v.up (m.rivers.length * xh + xr) xt - r.qmax) * (1000 * c.penalty) ≤ v.penalty ∧ (r.qmin - v.up (m.rivers.length * xh + xr) xt) * (1000 * c.penalty) ≤ v.penalty ∧
      (v.down (m.rivers.length * xh + xr) xt - r.qmax) * (1000 * c.penalty) ≤ v.penalty ∧ (r.qmin - v.down (m.rivers.length * xh + xr) xt) * (1000 * c.penalty) ≤ v.penalty) ∧
    (v.penalty = 0 → (r.qmin ≤ v.up (m.rivers.length * xh + xr) xt ∧ v.up (m.rivers.length * xh + xr) xt ≤ r.qmax) ∧
      r.qmin ≤ v.down (m.rivers.length * xh + xr) xt ∧ v.down (m.rivers.length * xh + xr) xt ≤ r.qmax) := by
  have init := hyInitialise_init hm
  have ht' : xt < m.conf.noTime := by rw [init.conf]; exact ht
  have hh' : xh < m.conf.number := by rw [init.conf]; exact hh
  have hxr : xr < m.rivers.length := (List.getElem?_eq_some_iff.1 hr).1
  have hslack : ∀ a b d, 0 ≤ m.slack v a b d := by
    intro a b d
    unfold HyModel.slack
    split
    · exact hf.nonneg.2.2.2.2.2.2.1 _ _
    · exact hf.nonneg.2.2.2.2.2.2.1 _ _
  have hpc : m.conf.penalty = c.penalty := by rw [init.conf]
  -- the slack is paid
  have hpay : m.slack v xr xt xh * (1000 * c.penalty) ≤ v.penalty := by
    rw [hf.penalty]
    have h1 : m.slack v xr xt xh ≤ ((List.range m.rivers.length).map (fun xr => m.slack v xr xt xh)).sum :=
      single_le_sum' (List.range m.rivers.length) (fun xr => m.slack v xr xt xh) (fun a _ => hslack a xt xh) xr (List.mem_range.2 hxr)
    have hrow : ∀ b d, 0 ≤ ((List.range m.rivers.length).map (fun xr => m.slack v xr b d)).sum * m.conf.penalty := by
      intro b d
      apply mul_nonneg _ (by rw [hpc]; exact hp.le)
      apply List.sum_nonneg
      intro x hx
      obtain ⟨y, _, rfl⟩ := List.mem_map.1 hx
      exact hslack _ _ _
    have h2 := single_le_sum' (List.range m.conf.noTime) (fun xt => ((List.range m.rivers.length).map (fun xr => m.slack v xr xt xh)).sum * m.conf.penalty)
      (fun a _ => hrow a xh) xt (List.mem_range.2 ht')
    have h3 := single_le_sum' (List.range m.conf.number) (fun xh => ((List.range m.conf.noTime).map (fun xt =>
      ((List.range m.rivers.length).map (fun xr => m.slack v xr xt xh)).sum * m.conf.penalty)).sum) (fun a _ => by
        apply List.sum_nonneg
        intro x hx
        obtain ⟨y, _, rfl⟩ := List.mem_map.1 hx
        exact hrow _ _) xh (List.mem_range.2 hh')
    have h4 : m.slack v xr xt xh * c.penalty ≤ ((List.range m.rivers.length).map (fun xr => m.slack v xr xt xh)).sum * m.conf.penalty := by
      rw [hpc]
      exact mul_le_mul_of_nonneg_right h1 hp.le
    linarith
  have a1 := hf.qmaxUp xr r hr xt ht' xh hh'
  have a2 := hf.qminUp xr r hr xt ht' xh hh'
  have a3 := hf.qmaxDown xr r hr xt ht' xh hh'
  have a4 := hf.qminDown xr r hr xt ht' xh hh'
  simp only [HyModel.conRiver] at a1 a2 a3 a4
  have hc : 0 < 1000 * c.penalty := by linarith
  have hle : ∀ x : Rat, x ≤ m.slack v xr xt xh → x * (1000 * c.penalty) ≤ v.penalty := by
    intro x hx
    exact le_trans (mul_le_mul_of_nonneg_right hx hc.le) hpay
  refine ⟨⟨hle _ (by linarith), hle _ (by linarith), hle _ (by linarith), hle _ (by linarith)⟩, ?_⟩
  intro h0
  rw [h0] at hpay
  have hs : m.slack v xr xt xh ≤ 0 := by
    by_contra hn
    have hpos : 0 < m.slack v xr xt xh := not_le.1 hn
    have := mul_pos hpos hc
    linarith
  exact ⟨⟨by linarith, by linarith⟩, by linarith, by linarith⟩

/-- **C140**: the penalty counts every scenario, period and river by itself (with the default setting 'Feas'): the excesses of two rivers, periods or scenarios are different
variables, and there is no other. -/
theorem C140_separate_partial (c : HyConf) (m : HyModel) (hm : hyInitialise c = .ok m) (hfe : c.feas = true) (want : Nat → Nat → Nat → Rat) :
    ∃ table : Nat → Nat → Rat, ∀ v : HyVars, v.feas = table → ∀ xr < m.rivers.length, ∀ xt < c.noTime, ∀ xh < c.number, m.slack v xr xt xh = want xr xt xh := by
  have init := hyInitialise_init hm
  refine ⟨fun i t => want (i % m.rivers.length) t (i / m.rivers.length), ?_⟩
  intro v hv xr hr xt _ xh _
  unfold HyModel.slack
  rw [init.conf, if_pos hfe, hv]
  simp only
  have hpos : 0 < m.rivers.length := by omega
  rw [Nat.add_comm, Nat.add_mul_mod_self_right, Nat.mod_eq_of_lt hr, Nat.add_mul_div_right _ _ hpos, Nat.div_eq_of_lt hr, Nat.zero_add]

/-! ## ramps -/

/-- **C141 violated**: with the default setting 'Feas' the ramp constraints compare each flow with itself: they hold for any flows. -/
theorem C141_ramp_violated (m : HyModel) (hfe : m.conf.feas = true) (hr : 0 ≤ m.ramp) (v : HyVars) (xr xt xh : Nat) :
    -m.ramp ≤ v.up (m.conRiver xh + xr) xt - v.up (m.conRiver xh + xr) (m.rampTime xt) ∧ v.up (m.conRiver xh + xr) xt - v.up (m.conRiver xh + xr) (m.rampTime xt) ≤ m.ramp := by
  unfold HyModel.rampTime
  rw [if_pos hfe, sub_self]
  exact ⟨by linarith, hr⟩

/-- **C141 violated**: the ramps that the user gives are not read: two settings that differ only in their values (and have equally many) give the same model or the same error,
every ramp of the model is 1, and a single ramp for all rivers is an error as soon as there are two parts. -/
theorem C141_values_violated (given given' : List Rat) (parts : List Nat) (n : Nat) :
    (given.length = given'.length → hyRamp given parts n = hyRamp given' parts n) ∧ (given.length = 1 → 1 < parts.sum → hyRamp given parts n = .error .value) ∧
      ∀ l, hyRamp given parts n = .ok l → l.length = parts.sum ∧ ∀ x ∈ l, x = 1 := by
  refine ⟨?_, ?_, ?_⟩
  · intro h
    unfold hyRamp
    rw [h]
  rotate_left
  · intro l hl
    unfold hyRamp at hl
    split at hl
    · cases hl
    · split at hl
      · cases hl
      · cases hl
        exact ⟨List.length_replicate, fun x hx => (List.mem_replicate.1 hx).2⟩
  · intro h1 h2
    unfold hyRamp
    rw [if_pos ⟨h1, h2⟩]

/-! ## storage -/

theorem truncInt_le {x : Rat} (h : 0 ≤ x) : 0 ≤ truncInt x ∧ (truncInt x : Rat) ≤ x ∧ x < (truncInt x : Rat) + 1 := by
  unfold truncInt
  rw [if_pos h]
  exact ⟨Rat.le_floor_iff.2 (by exact_mod_cast h), Rat.floor_le _, by
    have := Rat.lt_floor (x := x)
    linarith⟩

/-- the water that a storage unit can hold: its energy divided by the energy of a unit of water, 9.81 kJ per metre of head -/
def storageWater (u : HyUnit) : Rat := u.storage * 1000 / (981 / 100) / u.efficiency / u.head

theorem storFold_cap (n : Nat) : ∀ (units : List HyUnit) (st st' : HyStor), units.foldlM (storStep n) st = .ok st' →
    st'.cap = st.cap ++ (units.filter (fun u => decide (u.storage ≠ 0))).map (fun u => truncInt (storageWater u)) := by
  intro units
  induction units with
  | nil =>
    intro st st' h
    simp only [List.foldlM_nil] at h
    cases h
    simp
  | cons u units ih =>
    intro st st' h
    rw [List.foldlM_cons, except_bind_ok] at h
    obtain ⟨s1, h1, h2⟩ := h
    unfold storStep at h1
    split at h1
    · rename_i hs
      cases h1
      rw [ih _ _ h2, List.filter_cons_of_neg (by simp [hs])]
    · rename_i hs
      rw [except_bind_ok] at h1
      obtain ⟨tab, _, h4⟩ := h1
      split at h4
      · cases h4
      · cases h4
        rw [ih _ _ h2, List.filter_cons_of_pos (by simp [hs]), List.map_cons, List.append_assoc]
        rfl

theorem HyInit.cap {c : HyConf} {m : HyModel} (i : HyInit c m) : m.stor.cap = (c.units.filter (fun u => decide (u.storage ≠ 0))).map (fun u => truncInt (storageWater u)) := by
  have h := i.stor
  unfold hyStor at h
  rw [except_bind_ok] at h
  obtain ⟨s, h1, h2⟩ := h
  split at h2
  · cases h2
  · rw [Except.ok.injEq] at h2
    rw [← h2, storFold_cap _ _ _ _ h1]
    rfl

/-- **C142**: storage of hydropower units.  In every solution each unit with storage (the `k`-th of them) holds between nothing and the water of its energy capacity, and ends
the day with what it held at the beginning. -/
theorem C142_storage_partial (c : HyConf) (m : HyModel) (hm : hyInitialise c = .ok m) (v : HyVars) (hf : m.Feasible v) (k : Nat) (u : HyUnit)
    (hk : (c.units.filter (fun u => decide (u.storage ≠ 0)))[k]? = some u) (hu : 0 ≤ storageWater u) (xh : Nat) (hh : xh < c.number) :
    (∀ xt < c.noTime, 0 ≤ v.stor (xh * m.stor.cap.length + k) xt ∧ v.stor (xh * m.stor.cap.length + k) xt ≤ storageWater u) ∧
    v.stor (xh * m.stor.cap.length + k) 0 = v.stor (xh * m.stor.cap.length + k) (c.noTime - 1) := by
  have init := hyInitialise_init hm
  have hcap : m.stor.cap[k]? = some (truncInt (storageWater u)) := by
    rw [init.cap, List.getElem?_map, hk]
    rfl
  refine ⟨fun xt ht => ⟨hf.nonneg.2.2.2.2.2.1 _ _, ?_⟩, ?_⟩
  · have := hf.storMax k _ hcap xt (by rw [init.conf]; exact ht) xh (by rw [init.conf]; exact hh)
    exact le_trans this (truncInt_le hu).2.1
  · have hlt : k < m.stor.cap.length := (List.getElem?_eq_some_iff.1 hcap).1
    have := hf.storLink (xh * m.stor.cap.length + k) (by
      rw [init.conf]
      have : (xh + 1) * m.stor.cap.length ≤ c.number * m.stor.cap.length := Nat.mul_le_mul_right _ hh
      have e : (xh + 1) * m.stor.cap.length = xh * m.stor.cap.length + m.stor.cap.length := Nat.succ_mul _ _
      omega)
    rw [init.conf] at this
    exact this

/-- **C142 violated**: the balance of the first period counts the difference to the last period, which the link of both periods makes zero: no unit can store or release water in
the first period, whatever its capacity is. -/
theorem C142_first_violated (c : HyConf) (m : HyModel) (hm : hyInitialise c = .ok m) (v : HyVars) (hf : m.Feasible v) (xh : Nat) (hh : xh < c.number) :
    m.stored v 0 xh - m.stored v (prevTime c.noTime 0) xh = 0 := by
  have init := hyInitialise_init hm
  unfold HyModel.stored prevTime
  rw [if_pos rfl, sub_eq_zero]
  congr 1
  apply List.map_congr_left
  intro k hk
  rw [List.mem_range] at hk
  have := hf.storLink (xh * m.stor.cap.length + k) (by
    rw [init.conf]
    have : (xh + 1) * m.stor.cap.length ≤ c.number * m.stor.cap.length := Nat.mul_le_mul_right _ hh
    have e : (xh + 1) * m.stor.cap.length = xh * m.stor.cap.length + m.stor.cap.length := Nat.succ_mul _ _
    omega)
  rw [init.conf] at this
  exact this

/-- **C142 violated**: capacities are truncated to integers: a unit whose capacity is less than one unit of water has none. -/
theorem C142_small_violated (c : HyConf) (m : HyModel) (hm : hyInitialise c = .ok m) (v : HyVars) (hf : m.Feasible v) (k : Nat) (u : HyUnit)
    (hk : (c.units.filter (fun u => decide (u.storage ≠ 0)))[k]? = some u) (hu : 0 ≤ storageWater u) (hs : storageWater u < 1) (xh : Nat) (hh : xh < c.number)
    (xt : Nat) (ht : xt < c.noTime) : v.stor (xh * m.stor.cap.length + k) xt = 0 := by
  have init := hyInitialise_init hm
  have hcap : m.stor.cap[k]? = some (truncInt (storageWater u)) := by
    rw [init.cap, List.getElem?_map, hk]
    rfl
  have h0 : truncInt (storageWater u) = 0 := by
    obtain ⟨a, b, _⟩ := truncInt_le hu
    have : (truncInt (storageWater u) : Rat) < 1 := lt_of_le_of_lt b hs
    have h1 : truncInt (storageWater u) < 1 := by exact_mod_cast this
    omega
  have := hf.storMax k _ hcap xt (by rw [init.conf]; exact ht) xh (by rw [init.conf]; exact hh)
  rw [h0] at this
  have hn := hf.nonneg.2.2.2.2.2.1 (xh * m.stor.cap.length + k) xt
  have h2 : v.stor (xh * m.stor.cap.length + k) xt ≤ 0 := by exact_mod_cast this
  exact le_antisymm h2 hn

/-- **C142 violated**: of two units with storage at one node only the second one is in the balance of the node; the first one stores nothing. -/
theorem C142_double_violated : hyStor [⟨1, 1, 100, 100⟩, ⟨1, 1, 100, 200⟩] 2 = .ok ⟨[(1, 1), (0, 0)], [101, 203]⟩ := by decide +kernel

/-! ## links between scenarios -/

/-- **C143**: links between scenarios.  In every solution each link makes the volume of water in every river equal at its two ends (0 for the beginning of a scenario, 1 for its
end). -/
theorem C143_links_partial (c : HyConf) (m : HyModel) (hm : hyInitialise c = .ok m) (v : HyVars) (hf : m.Feasible v) (i h h' e e' : Nat) (hF : c.linksF[i]? = some (h, e))
    (hT : c.linksT[i]? = some (h', e')) (he : e ≤ 1) (he' : e' ≤ 1) :
    (h < c.number ∧ h' < c.number) ∧ ∀ xr < m.rivers.length, v.soc (m.rivers.length * h + xr) (e * c.noTime) = v.soc (m.rivers.length * h' + xr) (e' * c.noTime) := by
  have init := hyInitialise_init hm
  have hget : ∀ e : Nat, e ≤ 1 → npGet [0, c.noTime] e = .ok (e * c.noTime) := by
    intro e he
    have : e = 0 ∨ e = 1 := by omega
    rcases this with rfl | rfl
    · simp [npGet]
    · simp [npGet]
  have h0 := init.links
  unfold hySoCLinks at h0
  split at h0
  · cases h0
  · obtain ⟨y, h2, h1⟩ := (mapM_ok_forall _ _ _ h0).2 ((h, e), i) (List.mk_mem_zipIdx_iff_getElem?.2 hF)
    simp only [npGet_some hT, hget e he, hget e' he', bind, Except.bind] at h1
    split at h1
    · rename_i hlt
      cases h1
      refine ⟨hlt, fun xr hx => ?_⟩
      have := hf.socLink _ h2 xr hx
      exact this
    · cases h1

/-- **C143 violated**: without links the engine cannot be initialised. -/
theorem C143_none_violated (c : HyConf) (h : c.linksF = []) : ∀ m, hyInitialise c ≠ .ok m := by
  intro m hm
  have := (hyInitialise_init hm).links
  unfold hySoCLinks at this
  rw [if_pos h] at this
  cases this

/-- **C143 violated**: the scenario of a single controlled input is ignored: whatever it is, the solutions are the same, with the series at the input of the first scenario. -/
theorem C143_controlled_violated (m : HyModel) (n : Nat) (hn : m.conf.inCN = [n]) (s : List Nat) (v : HyVars) :
    (m.Feasible v ↔ ({ m with conf := { m.conf with inCS := s } } : HyModel).Feasible v) ∧
    (m.Feasible v → ∀ xt < m.conf.noTime, ∀ x, (m.conf.inSeries[0]?.getD [])[xt]? = some x → v.inp n xt = x) := by
  refine ⟨⟨fun h => ⟨h.nonneg, h.qmaxDown, h.qmaxUp, h.qminDown, h.qminUp, h.qminOut, h.balance, h.penalty, h.river, h.weights, h.socLink, h.downTime, h.fixed, h.storMax,
    h.storLink, h.rampDown, h.rampUp, ?_⟩, fun h => ⟨h.nonneg, h.qmaxDown, h.qmaxUp, h.qminDown, h.qminUp, h.qminOut, h.balance, h.penalty, h.river, h.weights, h.socLink,
    h.downTime, h.fixed, h.storMax, h.storLink, h.rampDown, h.rampUp, ?_⟩⟩, fun h => ?_⟩
  · have := h.controlled
    rw [hn] at this
    simp only [hn]
    exact this
  · have := h.controlled
    simp only [hn] at this
    rw [hn]
    exact this
  · have := h.controlled
    rw [hn] at this
    exact this

/-- **C143**: with two or more controlled inputs each takes the given series in the given scenario: in the scenario's own block of the inputs. -/
theorem C143_controlled_partial (m : HyModel) (v : HyVars) (hf : m.Feasible v) (hn : 2 ≤ m.conf.inCN.length) (i n s xt : Nat) (row : List Rat) (x : Rat)
    (h1 : m.conf.inCN[i]? = some n) (h2 : m.conf.inCS[i]? = some s) (h3 : m.conf.inSeries[i]? = some row) (h4 : xt < m.conf.noTime) (h5 : row[xt]? = some x) :
    v.inp (m.ins.length * s + n) xt = x := by
  have h := hf.controlled
  split at h
  · rename_i e
    rw [e] at hn
    simp at hn
  · rename_i e
    rw [e] at hn
    simp at hn
  · exact h i n s row h1 h2 h3 xt h4 x h5

/-! ## outputs -/

/-- **C144**: an output at a node from which a river leaves is not bounded from below, except by zero and the water that arrives: the model has one lower bound for each other
output and none for these. -/
theorem C144_inner_partial (c : HyConf) (m : HyModel) (hm : hyInitialise c = .ok m) :
    ∀ p ∈ m.outCon, ∃ node r, m.outs[p.1]? = some node ∧ node ∉ m.rivers.map (·.frm) ∧ m.rivers[p.2]? = some r ∧ r.dest = node := by
  have init := hyInitialise_init hm
  obtain ⟨l, h1, h2⟩ := init.outCon
  intro p hp
  rw [h2, List.mem_flatten] at hp
  obtain ⟨y, y1, y2⟩ := hp
  obtain ⟨⟨node, k⟩, z1, z2⟩ := (mapM_ok_forall _ _ _ h1).1 y y1
  unfold outStep at z2
  split at z2
  · cases z2
    simp at y2
  · rename_i hfr
    split at z2
    · rename_i xr hx
      cases z2
      simp only [List.mem_singleton] at y2
      subst y2
      rw [List.findIdx?_eq_some_iff_getElem] at hx
      obtain ⟨hlt, hd, _⟩ := hx
      simp only [decide_eq_true_eq] at hd
      exact ⟨node, m.rivers[xr], List.mk_mem_zipIdx_iff_getElem?.1 z1, hfr, List.getElem?_eq_getElem hlt, hd⟩
    · cases z2

/-- **C144**: output nodes.  If the model is built, every output node is a node of a river, and in every solution the output of a node from which no river leaves is at least
the minimum flow of a river that ends there, less the slack of that river. -/
theorem C144_outputs_partial (c : HyConf) (m : HyModel) (hm : hyInitialise c = .ok m) (k node : Nat) (hk : m.outs[k]? = some node) :
    (node ∈ m.rivers.map (·.frm) ∨ node ∈ m.rivers.map (·.dest)) ∧
    (node ∉ m.rivers.map (·.frm) → ∃ xr r, m.rivers[xr]? = some r ∧ r.dest = node ∧ ∀ (v : HyVars), m.Feasible v → ∀ xt < c.noTime, ∀ xh < c.number,
      r.qmin - m.slack v xr xt xh ≤ v.out (m.outs.length * xh + k) xt) := by
  have init := hyInitialise_init hm
  obtain ⟨l, h1, h2⟩ := init.outCon
  obtain ⟨y, y1, y2⟩ := (mapM_ok_forall _ _ _ h1).2 (node, k) (List.mk_mem_zipIdx_iff_getElem?.2 hk)
  unfold outStep at y2
  split at y2
  · rename_i hfr
    exact ⟨Or.inl hfr, fun hn => absurd hfr hn⟩
  · split at y2
    · rename_i xr hx
      cases y2
      rw [List.findIdx?_eq_some_iff_getElem] at hx
      obtain ⟨hlt, hd, _⟩ := hx
      simp only [decide_eq_true_eq] at hd
      refine ⟨Or.inr (List.mem_map.2 ⟨m.rivers[xr], List.getElem_mem hlt, hd⟩), fun _ => ?_⟩
      refine ⟨xr, m.rivers[xr], List.getElem?_eq_getElem hlt, hd, ?_⟩
      intro v hf xt ht xh hh
      refine hf.qminOut (k, xr) ?_ _ (List.getElem?_eq_getElem hlt) xt (by rw [init.conf]; exact ht) xh (by rw [init.conf]; exact hh)
      rw [h2, List.mem_flatten]
      exact ⟨_, y1, by simp⟩
    · cases y2

/-! ## examples -/

/-- values of variables given by tables -/
def hyTab (l : List (List Rat)) (i t : Nat) : Rat := ((l[i]?).bind (fun (r : List Rat) => r[t]?)).getD 0

theorem hyTab_nonneg (l : List (List Rat)) (h : l.all (fun r => r.all (fun x => decide (0 ≤ x))) = true) (i t : Nat) : 0 ≤ hyTab l i t := by
  unfold hyTab
  cases h1 : l[i]? with
  | none => simp
  | some r =>
    simp only [Option.bind_some]
    cases h2 : r[t]? with
    | none => simp
    | some x =>
      have a := List.all_eq_true.1 h r (List.mem_of_getElem? h1)
      have b := List.all_eq_true.1 a x (List.mem_of_getElem? h2)
      simpa using b

/-- all pairs of a period and a scenario -/
def HyModel.allTS (m : HyModel) (p : Nat → Nat → Bool) : Bool := (List.range m.conf.noTime).all (fun xt => (List.range m.conf.number).all (fun xh => p xt xh))

theorem HyModel.allTS_spec {m : HyModel} {p : Nat → Nat → Bool} (h : m.allTS p = true) (xt : Nat) (ht : xt < m.conf.noTime) (xh : Nat) (hh : xh < m.conf.number) : p xt xh = true := by
  unfold HyModel.allTS at h
  exact List.all_eq_true.1 (List.all_eq_true.1 h xt (List.mem_range.2 ht)) xh (List.mem_range.2 hh)

/-- a check of all constraints for a solution given by tables (without controlled inputs) -/
def HyModel.check (m : HyModel) (v : HyVars) : Bool :=
  m.rivers.zipIdx.all (fun p => m.allTS (fun xt xh =>
    decide (v.down (m.conRiver xh + p.2) xt ≤ p.1.qmax + m.slack v p.2 xt xh) && decide (v.up (m.conRiver xh + p.2) xt ≤ p.1.qmax + m.slack v p.2 xt xh) &&
    decide (p.1.qmin - m.slack v p.2 xt xh ≤ v.down (m.conRiver xh + p.2) xt) && decide (p.1.qmin - m.slack v p.2 xt xh ≤ v.up (m.conRiver xh + p.2) xt) &&
    decide (v.down (m.conRiver xh + p.2) xt = m.downTime v p.1 p.2 xt xh) &&
    decide (v.down (m.conRiver xh + p.2) xt * m.dt = v.up (m.conRiver xh + p.2) xt * m.dt + v.soc (m.conRiver xh + p.2) xt - v.soc (m.conRiver xh + p.2) (xt + 1)) &&
    decide (-m.ramp ≤ v.up (m.conRiver xh + p.2) xt - v.up (m.conRiver xh + p.2) (m.rampTime xt)) &&
    decide (v.up (m.conRiver xh + p.2) xt - v.up (m.conRiver xh + p.2) (m.rampTime xt) ≤ m.ramp))) &&
  m.outCon.all (fun p => m.allTS (fun xt xh => decide ((((m.rivers[p.2]?).map (·.qmin)).getD 0) - m.slack v p.2 xt xh ≤ v.out (m.outs.length * xh + p.1) xt))) &&
  (List.range m.nodes).all (fun xn => m.allTS (fun xt xh => decide ((m.nodeSides v xn xt xh).1 = (m.nodeSides v xn xt xh).2))) &&
  decide (v.penalty = ((List.range m.conf.number).map (fun xh => ((List.range m.conf.noTime).map (fun xt =>
    ((List.range m.rivers.length).map (fun xr => m.slack v xr xt xh)).sum * m.conf.penalty)).sum)).sum * 1000) && decide (0 ≤ v.penalty) &&
  m.shares.all (fun p => m.allTS (fun xt xh => decide (v.up (m.conRiver xh + p.1) xt * p.2.2 = v.up (m.conRiver xh + p.2.1) xt))) &&
  m.links.all (fun p => (List.range m.rivers.length).all (fun xr => decide (v.soc (m.conRiver p.1.1 + xr) p.1.2 = v.soc (m.conRiver p.2.1 + xr) p.2.2))) &&
  m.conf.fixed.all (fun p => decide (v.inp p.1 p.2.1 = p.2.2)) &&
  m.stor.cap.zipIdx.all (fun p => m.allTS (fun xt xh => decide (v.stor (xh * m.stor.cap.length + p.2) xt ≤ (p.1 : Rat)))) &&
  (List.range (m.conf.number * m.stor.cap.length)).all (fun xn => decide (v.stor xn 0 = v.stor xn (m.conf.noTime - 1))) && decide (m.conf.inCN = [])

theorem HyModel.feasible_of_check (m : HyModel) (v : HyVars) (hn : (∀ i t, 0 ≤ v.down i t) ∧ (∀ i t, 0 ≤ v.up i t) ∧ (∀ i t, 0 ≤ v.inp i t) ∧ (∀ i t, 0 ≤ v.out i t) ∧
    (∀ i t, 0 ≤ v.soc i t) ∧ (∀ i t, 0 ≤ v.stor i t) ∧ (∀ i t, 0 ≤ v.feas i t)) (h : m.check v = true) : m.Feasible v := by
  unfold HyModel.check at h
  simp only [Bool.and_eq_true, decide_eq_true_eq] at h
  obtain ⟨⟨⟨⟨⟨⟨⟨⟨⟨⟨h1, h2⟩, h3⟩, h4⟩, h5⟩, h6⟩, h7⟩, h8⟩, h9⟩, h10⟩, h11⟩ := h
  have hriv : ∀ xr r, m.rivers[xr]? = some r → ∀ xt < m.conf.noTime, ∀ xh < m.conf.number, _ := fun xr r hr xt ht xh hh => by
    have := HyModel.allTS_spec (List.all_eq_true.1 h1 (r, xr) (List.mk_mem_zipIdx_iff_getElem?.2 hr)) xt ht xh hh
    simp only [Bool.and_eq_true, decide_eq_true_eq] at this
    exact this
  have hidx : ∀ xr < m.rivers.length, ∃ r, m.rivers[xr]? = some r := fun xr hx => ⟨_, List.getElem?_eq_getElem hx⟩
  refine ⟨⟨hn.1, hn.2.1, hn.2.2.1, hn.2.2.2.1, hn.2.2.2.2.1, hn.2.2.2.2.2.1, hn.2.2.2.2.2.2, h5⟩, ?_, ?_, ?_, ?_, ?_, ?_, h4, ?_, ?_, ?_, ?_, ?_, ?_, ?_, ?_, ?_, ?_⟩
  · intro xr r hr xt ht xh hh
    exact (hriv xr r hr xt ht xh hh).1.1.1.1.1.1.1
  · intro xr r hr xt ht xh hh
    exact (hriv xr r hr xt ht xh hh).1.1.1.1.1.1.2
  · intro xr r hr xt ht xh hh
    exact (hriv xr r hr xt ht xh hh).1.1.1.1.1.2
  · intro xr r hr xt ht xh hh
    exact (hriv xr r hr xt ht xh hh).1.1.1.1.2
  · intro p hp r hr xt ht xh hh
    have := HyModel.allTS_spec (List.all_eq_true.1 h2 p hp) xt ht xh hh
    simpa [hr] using this
  · intro xn hx xt ht xh hh
    have := HyModel.allTS_spec (List.all_eq_true.1 h3 xn (List.mem_range.2 hx)) xt ht xh hh
    simpa using this
  · intro xr hx xt ht xh hh
    obtain ⟨r, hr⟩ := hidx xr hx
    exact (hriv xr r hr xt ht xh hh).1.1.2
  · intro p hp xt ht xh hh
    have := HyModel.allTS_spec (List.all_eq_true.1 h6 p hp) xt ht xh hh
    simpa using this
  · intro p hp xr hx
    have := List.all_eq_true.1 (List.all_eq_true.1 h7 p hp) xr (List.mem_range.2 hx)
    simpa using this
  · intro xr r hr xt ht xh hh
    exact (hriv xr r hr xt ht xh hh).1.1.1.2
  · intro p hp
    simpa using List.all_eq_true.1 h8 p hp
  · intro xn cap hc xt ht xh hh
    have := HyModel.allTS_spec (List.all_eq_true.1 h9 (cap, xn) (List.mk_mem_zipIdx_iff_getElem?.2 hc)) xt ht xh hh
    simpa using this
  · intro xn hx
    simpa using List.all_eq_true.1 h10 xn (List.mem_range.2 hx)
  · intro xr hx xt ht xh hh
    obtain ⟨r, hr⟩ := hidx xr hx
    exact (hriv xr r hr xt ht xh hh).1.2
  · intro xr hx xt ht xh hh
    obtain ⟨r, hr⟩ := hidx xr hx
    exact (hriv xr r hr xt ht xh hh).2
  · rw [h11]
    trivial

/-- the error with which the initialisation stops -/
def hyError (c : HyConf) : Option PyErr :=
  match hyInitialise c with
  | .ok _ => none
  | .error e => some e

/-- a river of 1000 m, 200 m wide, between 1 and 8 m deep, with slope 0.0001 and Manning's n 0.03: flows, speeds and minimum volume by HY:398-400 -/
def exRiver (frm dest : Nat) (share : Rat) : River := ⟨frm, dest, 1000, share, 6400 / 3, 200 / 3, 4 / 3, 1 / 3, 200⟩

/-- a river that divides into two, with storage where it divides -/
def exHyConf (feas : Bool) (fixed : List (Nat × Nat × Rat)) : HyConf where
  rivers := [exRiver 1 2 1, exRiver 2 3 (2 / 5), exRiver 2 4 (3 / 5)]
  parts := []
  ramp := []
  ins := [1]
  outs := [3, 4]
  feas := feas
  noTime := 3
  number := 1
  linksF := [(0, 0)]
  linksT := [(0, 1)]
  fixed := fixed
  inCN := []
  inCS := []
  inSeries := []
  pumpFrom := []
  pumpTo := []
  units := [⟨2, 1, 100, 50⟩]
  penalty := 10000
  seconds := 3600
  scale := 1000

/-- a solution in which the storage takes 10 units of water in the second period and gives them back in the third -/
def exHyVars : HyVars where
  down := hyTab [[500, 500, 500], [510413800/2550891, 502275916/2550891, 517844884/2550891], [255206900/850297, 251137958/850297, 258922442/850297]]
  up := hyTab [[500, 500, 500], [200, 196, 204], [300, 294, 306]]
  inp := hyTab [[500, 500, 500]]
  out := hyTab [[510413800/2550891, 502275916/2550891, 517844884/2550891], [255206900/850297, 251137958/850297, 258922442/850297]]
  soc := hyTab [[45720/31, 45720/31, 45720/31, 45720/31], [15645831672/26359207, 15637067352/26359207, 15551459736/26359207, 15645831672/26359207],
    [23417729688/26359207, 23404583208/26359207, 23276171784/26359207, 23417729688/26359207]]
  stor := hyTab [[10, 20, 10]]
  feas := hyTab []
  penalty := 0

/-- a solution with more water than the first river can take -/
def exHyFlood : HyVars where
  down := hyTab [[2200, 2200, 2200], [880, 880, 880], [1320, 1320, 1320]]
  up := hyTab [[2200, 2200, 2200], [880, 880, 880], [1320, 1320, 1320]]
  inp := hyTab [[2200, 2200, 2200]]
  out := hyTab [[880, 880, 880], [1320, 1320, 1320]]
  soc := hyTab [[229944/31, 229944/31, 229944/31, 229944/31], [109560/31, 109560/31, 109560/31, 109560/31], [149688/31, 149688/31, 149688/31, 149688/31]]
  stor := hyTab [[0, 0, 0]]
  feas := hyTab [[200 / 3]]
  penalty := 200 / 3 * 9 * 10000 * 1000

theorem feasible_of_tables (c : HyConf) (d u i o s t f : List (List Rat)) (p : Rat) (hn : [d, u, i, o, s, t, f].all (fun l => l.all (fun r => r.all (fun x => decide (0 ≤ x)))) = true)
    (h : (match hyInitialise c with | .ok m => m.check ⟨hyTab d, hyTab u, hyTab i, hyTab o, hyTab s, hyTab t, hyTab f, p⟩ | .error _ => false) = true) :
    ∃ m, hyInitialise c = .ok m ∧ m.Feasible ⟨hyTab d, hyTab u, hyTab i, hyTab o, hyTab s, hyTab t, hyTab f, p⟩ := by
  cases hc : hyInitialise c with
  | error e => rw [hc] at h; cases h
  | ok m =>
    rw [hc] at h
    simp only [List.all_cons, List.all_nil, Bool.and_eq_true, Bool.and_true] at hn
    refine ⟨m, rfl, m.feasible_of_check _ ⟨?_, ?_, ?_, ?_, ?_, ?_, ?_⟩ h⟩
    · exact hyTab_nonneg _ hn.1
    · exact hyTab_nonneg _ hn.2.1
    · exact hyTab_nonneg _ hn.2.2.1
    · exact hyTab_nonneg _ hn.2.2.2.1
    · exact hyTab_nonneg _ hn.2.2.2.2.1
    · exact hyTab_nonneg _ hn.2.2.2.2.2.1
    · exact hyTab_nonneg _ hn.2.2.2.2.2.2

/-- the hypotheses of C137 to C144 are met: a model, correct settings and a solution in which all flows and volumes vary -/
theorem C137_witness : HyUser (exHyConf true [(0, 1, 500)]) ∧ ∃ m, hyInitialise (exHyConf true [(0, 1, 500)]) = .ok m ∧ m.Feasible exHyVars := by
  constructor
  · refine ⟨by decide, by decide, by decide, by decide +kernel⟩
  · exact feasible_of_tables _ _ _ _ _ _ _ _ _ (by decide +kernel) (by decide +kernel)

/-- the rivers of the example can vary their flow and speed (hypothesis of C139) -/
example : RiverOk (exRiver 1 2 1) 3600 := ⟨⟨by decide +kernel, by decide +kernel⟩, ⟨by decide +kernel, by decide +kernel⟩, by decide +kernel, by decide +kernel⟩

/-- the energy of the storage of the example is that of more than one unit of water (hypotheses of C142) -/
example : 50 < storageWater ⟨2, 1, 100, 50⟩ ∧ storageWater ⟨2, 1, 100, 50⟩ < 51 := by decide +kernel

/-- **C140 violated**: switching the feasibility variables off ('Feas' False) does not make the limits hard: one slack, paid for all rivers and periods, loosens all of them, and a
solution has more water in a river than its maximum. -/
theorem C140_feas_violated : ∃ m, hyInitialise (exHyConf false []) = .ok m ∧ m.Feasible exHyFlood ∧ m.conf.feas = false ∧ (exRiver 1 2 1).qmax < exHyFlood.up 0 0 := by
  obtain ⟨m, h1, h2⟩ := feasible_of_tables (exHyConf false []) (d := [[2200, 2200, 2200], [880, 880, 880], [1320, 1320, 1320]])
    (u := [[2200, 2200, 2200], [880, 880, 880], [1320, 1320, 1320]]) (i := [[2200, 2200, 2200]]) (o := [[880, 880, 880], [1320, 1320, 1320]])
    (s := [[229944/31, 229944/31, 229944/31, 229944/31], [109560/31, 109560/31, 109560/31, 109560/31], [149688/31, 149688/31, 149688/31, 149688/31]])
    (t := [[0, 0, 0]]) (f := [[200 / 3]]) (p := 200 / 3 * 9 * 10000 * 1000) (by decide +kernel) (by decide +kernel)
  exact ⟨m, h1, h2, by rw [(hyInitialise_init h1).conf]; rfl, by decide +kernel⟩

/-- **C139 violated**: the volume at which the flow is the maximum is not that of the river at its maximum depth (which the program computes and does not use): the river of the
example, full with 1600 units of water, is given a quarter of its maximum flow. -/
theorem C139_full_violated : ∃ slope, slope = (qLinear (exRiver 1 2 1) 3600 (36 / 10)).1 ∧ riverFlow (exRiver 1 2 1) slope 1600 < (exRiver 1 2 1).qmax / 3 :=
  ⟨_, rfl, by decide +kernel⟩

/-- **C138 violated**: the same rivers with share 0 for the first of the two that leave node 2 -/
theorem C138_zero_example_violated : hyError { exHyConf true [] with rivers := [exRiver 1 2 1, exRiver 2 3 0, exRiver 2 4 1] } = some .zeroDivision ∧
    hyError { exHyConf true [] with rivers := [exRiver 1 2 1, exRiver 2 3 1, exRiver 2 4 0] } = none := by
  decide +kernel

/-- **C144 violated**: an output at node 2 of a river 1 to 3 -/
theorem C144_no_river_violated : hyError { exHyConf true [] with rivers := [exRiver 1 3 1], outs := [2, 3], units := [] } = some .index := by
  decide +kernel

/-- **C137 violated**: of two inputs at the same node only the second one is in the balance of the node: the water of the first one vanishes -/
theorem C137_double_violated : hyNodeTab [1, 1] 2 = .ok [(1, 1), (0, 0)] := by decide +kernel

/-- the network of the example meets the hypotheses of C136, and two rivers between the same nodes those of its violation -/
example : NodesIn [exRiver 1 2 1, exRiver 2 3 (2 / 5), exRiver 2 4 (3 / 5)] 4 ∧ ([exRiver 1 2 1, exRiver 2 3 (2 / 5), exRiver 2 4 (3 / 5)].map riverEnds).Nodup ∧
    NodesIn [exRiver 1 2 (1 / 2), exRiver 1 2 (1 / 2)] 2 ∧ ¬ ([exRiver 1 2 (1 / 2), exRiver 1 2 (1 / 2)].map riverEnds).Nodup := by
  refine ⟨?_, by decide +kernel, ?_, by decide +kernel⟩
  · intro r hr
    simp only [List.mem_cons, List.not_mem_nil, or_false] at hr
    rcases hr with rfl | rfl | rfl <;> simp [exRiver]
  · intro r hr
    simp only [List.mem_cons, List.not_mem_nil, or_false] at hr
    rcases hr with rfl | rfl <;> simp [exRiver]

/-- parts that meet the hypotheses of C135 -/
example : PartsGiven [2, 1, 3] 3 ∧ PartsGiven [4] 3 ∧ PartsGiven [] 3 := ⟨Or.inr (Or.inr ⟨rfl, by decide⟩), Or.inr (Or.inl ⟨4, by decide, rfl⟩), Or.inl rfl⟩

/-! ## parts, again -/

/-- **C135 violated**: zeros among the parts: the first river is not divided, because there are not more parts than rivers -/
theorem C135_zero_violated : buildParts [exRiver 1 2 1, exRiver 2 3 1, exRiver 3 4 1] [2, 1, 0] = .ok ([exRiver 1 2 1, exRiver 2 3 1, exRiver 3 4 1], 4) := by decide +kernel

/-- **C135 violated**: more parts than rivers: rows of zeros, which are not rivers -/
theorem C135_rows_violated : hyError { exHyConf true [] with rivers := [exRiver 1 2 1, exRiver 2 3 1], parts := [1, 1, 2], outs := [3] } = some .value := by decide +kernel

theorem addPumpNodes_fixed (pumps : List Nat) : ∀ (nodes : List Nat), (∀ x ∈ pumps, x ≠ 0 → x ∈ nodes) → addPumpNodes nodes pumps = nodes := by
  induction pumps with
  | nil => intro nodes _; rfl
  | cons p pumps ih =>
    intro nodes h
    have e : addPumpNodes nodes (p :: pumps) = addPumpNodes (if p ≠ 0 ∧ p ∉ nodes then nodes ++ [p] else nodes) pumps := rfl
    rw [e, if_neg (fun hp => hp.2 (h p List.mem_cons_self hp.1))]
    exact ih nodes (fun x hx => h x (List.mem_cons_of_mem _ hx))

theorem addPumpNodes_mem (pumps : List Nat) : ∀ (nodes : List Nat) (x : Nat), x ∈ addPumpNodes nodes pumps ↔ x ∈ nodes ∨ (x ∈ pumps ∧ x ≠ 0) := by
  induction pumps with
  | nil => intro nodes x; simp [addPumpNodes]
  | cons p pumps ih =>
    intro nodes x
    have e : addPumpNodes nodes (p :: pumps) = addPumpNodes (if p ≠ 0 ∧ p ∉ nodes then nodes ++ [p] else nodes) pumps := rfl
    rw [e, ih, List.mem_cons]
    split
    · rename_i hp
      rw [List.mem_append, List.mem_singleton]
      constructor
      · rintro ((h | h) | h)
        · exact Or.inl h
        · subst h
          exact Or.inr ⟨Or.inl rfl, hp.1⟩
        · exact Or.inr ⟨Or.inr h.1, h.2⟩
      · rintro (h | ⟨h | h, hx⟩)
        · exact Or.inl (Or.inl h)
        · exact Or.inl (Or.inr h)
        · exact Or.inr ⟨h, hx⟩
    · rename_i hp
      constructor
      · rintro (h | h)
        · exact Or.inl h
        · exact Or.inr ⟨Or.inr h.1, h.2⟩
      · rintro (h | ⟨h | h, hx⟩)
        · exact Or.inl h
        · subst h
          exact Or.inl (by
            by_contra hc
            exact hp ⟨hx, hc⟩)
        · exact Or.inr ⟨h, hx⟩

theorem addPumpNodes_again (pumps nodes : List Nat) : addPumpNodes (addPumpNodes nodes pumps) pumps = addPumpNodes nodes pumps :=
  addPumpNodes_fixed _ _ (fun x hx h0 => (addPumpNodes_mem pumps nodes x).2 (Or.inr ⟨hx, h0⟩))

/-- the number of parts does not change when it is given as the engine left it, unless a single river was divided -/
theorem hyParts_again {given : List Nat} {n : Nat} (hg : PartsGiven given n) (k : Nat) (h : 2 ≤ n ∨ (hyParts given n).sum = 1 ∧ n = 1 ∧ k = 1) :
    hyParts (hyParts given n) k = hyParts given n := by
  obtain ⟨p1, p2⟩ := hyParts_given hg
  generalize hyParts given n = l at p1 h
  match l, p1 with
  | [], p1 => simp at p1; omega
  | [x], p1 =>
    simp only [List.length_singleton, List.sum_singleton] at p1 h
    have : x = 1 ∧ k = 1 := by omega
    rw [this.1, this.2]
    rfl
  | x :: y :: l, _ => rfl

/-- **C135**: the engine keeps the rivers, parts, ramps and nodes that it computed, in the settings of the user.  If no river is divided, initialising again with them gives the
same model. -/
theorem C135_again_partial (c : HyConf) (m : HyModel) (hm : hyInitialise c = .ok m) (hg : PartsGiven c.parts c.rivers.length) (h1 : ∀ p ∈ partsSpec c.parts c.rivers.length, p = 1) :
    ∃ m', hyInitialise (hyAfter c m) = .ok m' ∧ m' = { m with conf := hyAfter c m } := by
  have init := hyInitialise_init hm
  rw [← hyParts_spec hg] at h1
  obtain ⟨p1, p2⟩ := hyParts_given hg
  have hsum : (hyParts c.parts c.rivers.length).sum = c.rivers.length := by
    have hgen : ∀ (l : List Nat), (∀ p ∈ l, p = 1) → l.sum = l.length := by
      intro l
      induction l with
      | nil => intro _; rfl
      | cons a l ih =>
        intro h1
        rw [List.sum_cons, ih (fun p hp => h1 p (List.mem_cons_of_mem _ hp)), h1 a List.mem_cons_self, List.length_cons]
        omega
    rw [hgen _ h1, p1]
  have hne : c.rivers ≠ [] := by
    intro e
    have := init.parts
    unfold buildParts at this
    rw [if_pos e] at this
    cases this
  have hpos : 0 < c.rivers.length := List.length_pos_iff.2 hne
  have hparts := init.parts
  unfold buildParts at hparts
  rw [if_neg hne, if_neg (by omega), Except.ok.injEq, Prod.mk.injEq] at hparts
  have hkeep : hyParts (hyParts c.parts c.rivers.length) c.rivers.length = hyParts c.parts c.rivers.length :=
    hyParts_again hg _ (by omega)
  -- the ramps
  obtain ⟨l, r1, r2⟩ := init.ramp
  have hl : l = List.replicate c.rivers.length 1 := by
    unfold hyRamp at r1
    split at r1
    · cases r1
    · split at r1
      · cases r1
      · rw [hsum, Except.ok.injEq] at r1
        exact r1.symm
  have hramp : hyRamp (List.replicate c.rivers.length 1) (hyParts c.parts c.rivers.length) c.rivers.length = .ok l := by
    unfold hyRamp
    rw [List.length_replicate, hsum, if_neg (by omega), if_neg, hl]
    rintro ⟨_, h | ⟨q, q1, q2, q3, q4⟩⟩
    · omega
    · omega
  have hprocess : hyProcess m.rivers = .ok () := by
    unfold hyProcess
    rw [if_neg init.process]
  obtain ⟨oc, o1, o2⟩ := init.outCon
  have hins : (if c.pumpFrom = [] then m.ins else addPumpNodes m.ins c.pumpTo) = m.ins := by
    rw [init.ins]
    split
    · rfl
    · exact addPumpNodes_again _ _
  have houts : (if c.pumpFrom = [] then m.outs else addPumpNodes m.outs c.pumpFrom) = m.outs := by
    rw [init.outs]
    split
    · rfl
    · exact addPumpNodes_again _ _
  have hlinks : hySoCLinks (hyAfter c m) = .ok m.links := init.links
  refine ⟨_, ?_, rfl⟩
  have hbuild : buildParts m.rivers (hyParts c.parts c.rivers.length) = .ok (m.rivers, m.nodes) := by
    unfold buildParts
    rw [← hparts.1, if_neg hne, hkeep, if_neg (by omega), hparts.2]
  unfold hyInitialise
  have e1 : hyRamp (hyAfter c m).ramp (hyParts (hyAfter c m).parts (hyAfter c m).rivers.length) (hyAfter c m).rivers.length = .ok l := by
    show hyRamp (List.replicate (hyParts c.parts c.rivers.length).sum 1) (hyParts (hyParts c.parts c.rivers.length) m.rivers.length) m.rivers.length = .ok l
    rw [← hparts.1, hkeep, hsum]
    exact hramp
  rw [e1]
  show (do
    let b ← buildParts m.rivers (hyParts c.parts c.rivers.length)
    let inTab ← hyNodeTab (if c.pumpFrom = [] then m.ins else addPumpNodes m.ins c.pumpTo) b.2
    let outTab ← hyNodeTab (if c.pumpFrom = [] then m.outs else addPumpNodes m.outs c.pumpFrom) b.2
    hyProcess b.1
    let net ← hyNet b.1 b.2
    let shares ← hyShares b.1 b.2 net
    let links ← hySoCLinks (hyAfter c m)
    let stor ← hyStor c.units b.2
    let oc ← (if c.pumpFrom = [] then m.outs else addPumpNodes m.outs c.pumpFrom).zipIdx.mapM (outStep b.1)
    .ok (⟨hyAfter c m, b.1, b.2, (if c.pumpFrom = [] then m.ins else addPumpNodes m.ins c.pumpTo), (if c.pumpFrom = [] then m.outs else addPumpNodes m.outs c.pumpFrom), inTab, outTab, net, shares,
      links, stor, oc.flatten, lastRamp b.1 l⟩ : HyModel)) = _
  rw [hbuild]
  simp only [bind, Except.bind, hins, houts, init.inTab, init.outTab, hprocess, init.net, init.shares, hlinks, init.stor]
  rw [o1]
  simp only [o2, r2]

/-- **C135 violated**: if there are at least two rivers and one of them is divided, initialising the engine again is an IndexError: the numbers of parts of the rivers are read
for every part. -/
theorem C135_again_violated (c : HyConf) (m : HyModel) (hm : hyInitialise c = .ok m) (hg : PartsGiven c.parts c.rivers.length) (h2 : 2 ≤ c.rivers.length)
    (h1 : ∃ p ∈ partsSpec c.parts c.rivers.length, 1 < p) : hyInitialise (hyAfter c m) = .error .index := by
  have init := hyInitialise_init hm
  rw [← hyParts_spec hg] at h1
  obtain ⟨p1, p2⟩ := hyParts_given hg
  have hne : c.rivers ≠ [] := by
    intro e
    rw [e] at h2
    simp at h2
  have hlen : m.rivers.length = (hyParts c.parts c.rivers.length).sum := by
    obtain ⟨blocks, b1, _, _, b4⟩ := C135_parts_partial c.rivers c.parts hne hg
    rw [← hyParts_spec hg] at b4
    have := init.parts
    rw [b1, Except.ok.injEq, Prod.mk.injEq] at this
    rw [← this.1, b4]
  have hgt : c.rivers.length < (hyParts c.parts c.rivers.length).sum := by
    have hgen : ∀ (l : List Nat), (∀ p ∈ l, 0 < p) → l.length ≤ l.sum ∧ ((∃ p ∈ l, 1 < p) → l.length < l.sum) := by
      intro l
      induction l with
      | nil => intro _; simp
      | cons a l ih =>
        intro hl
        obtain ⟨i1, i2⟩ := ih (fun p hp => hl p (List.mem_cons_of_mem _ hp))
        have ha := hl a List.mem_cons_self
        rw [List.sum_cons, List.length_cons]
        refine ⟨by omega, ?_⟩
        rintro ⟨p, hp, hp1⟩
        rcases List.mem_cons.1 hp with rfl | hp
        · omega
        · have := i2 ⟨p, hp, hp1⟩
          omega
    have := (hgen _ p2).2 h1
    omega
  have hkeep : ∀ k, hyParts (hyParts c.parts c.rivers.length) k = hyParts c.parts c.rivers.length := fun k => hyParts_again hg k (Or.inl h2)
  have e1 : hyRamp (hyAfter c m).ramp (hyParts (hyAfter c m).parts (hyAfter c m).rivers.length) (hyAfter c m).rivers.length = .error .index := by
    show hyRamp (List.replicate (hyParts c.parts c.rivers.length).sum 1) (hyParts (hyParts c.parts c.rivers.length) m.rivers.length) m.rivers.length = _
    rw [hkeep, hlen]
    unfold hyRamp
    rw [List.length_replicate, if_neg (by omega), if_pos ⟨by omega, Or.inl (by omega)⟩]
  unfold hyInitialise
  rw [e1]
  rfl

/-- **C135 violated**: a single river in three parts has nine parts when the engine is initialised again: the one number of parts is taken for all rivers -/
theorem C135_single_violated : (hyInitialise { exHyConf true [] with rivers := [exRiver 1 2 1], parts := [3], ins := [1], outs := [2], units := [] }).bind
    (fun m => (hyInitialise (hyAfter { exHyConf true [] with rivers := [exRiver 1 2 1], parts := [3], ins := [1], outs := [2], units := [] } m)).map
      (fun m' => (m.rivers.length, m'.rivers.length))) = .ok (3, 9) := by decide +kernel

/-- the hypotheses of C135 (again): the example, undivided and divided -/
example : hyError (exHyConf true []) = none ∧ hyError { exHyConf true [] with parts := [2, 1, 1] } = none := by decide +kernel

end Pyensys
