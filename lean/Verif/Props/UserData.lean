import Verif.Props.Coupled

/-!
# User functions of the coupled model: reports and data (C117–C121)
-/

namespace Pyensys

/-! ## reports that do not return what they announce (C117) -/

/-- **C117 (losses, violated).** A user who models losses never learns them: as soon as there is a branch the report ends the program. -/
theorem C117_losses_violated (x : ApiData) (h : x.losses = true) (hb : 0 < x.sizes.branches) (q : Rat) : getAllLoss x ≠ .ok q := by
  unfold getAllLoss
  rw [if_pos h]
  obtain ⟨n, hn⟩ : ∃ n, x.sizes.branches = n + 1 := ⟨x.sizes.branches - 1, by omega⟩
  rw [hn, List.range_succ_eq_map, List.foldlM_cons]
  simp [addTo, getLoss, bind, Except.bind]

/-- **C117 (no losses).** Without losses the report is zero. -/
theorem C117_losses_partial (x : ApiData) (h : x.losses = false) : getAllLoss x = .ok 0 := by
  unfold getAllLoss
  rw [if_neg (by simp [h])]

/-- **C117 (net demand, violated).** The net demand is never returned when it includes the demand. -/
theorem C117_net_demand_violated (x : ApiData) (v : ApiVals) (a : ResultArgs) (p l c : Bool) (q : Rat) :
    getNetDemand x v a true p l c ≠ .ok q := by
  unfold getNetDemand
  rw [if_pos rfl]
  cases getAllDemand x a <;> simp [bind, Except.bind]

/-- **C117 (net demand).** Without demand and losses it is the pumping and the curtailment reported. -/
theorem C117_net_demand_partial (x : ApiData) (v : ApiVals) (a : ResultArgs) (p : Rat) (c : Rat × Rat × Rat)
    (hp : getAllPumps x v a = .ok p) (hc : getAllCurtailment x v a = .ok c) :
    getNetDemand x v a false true false true = .ok (p + c.1) ∧ getNetDemand x v a false true false false = .ok p ∧
    getNetDemand x v a false false false true = .ok c.1 := by
  refine ⟨?_, ?_, ?_⟩ <;> simp [getNetDemand, hp, hc, bind, Except.bind]

/-- **C117 (load types, violated).** A load type that is stored as a list (what the reader does with a single rural bus) makes the report of the demand
raise, whatever the results are. -/
theorem C117_load_types_violated (x : ApiData) (a : ResultArgs) (n : Nat) (hn : n < x.noBus) (l : List Int)
    (hl : x.loadTypes[n]? = some (.list l)) (r : Rat × Rat × Rat) : getAllDemand x a ≠ .ok r := by
  intro h
  unfold getAllDemand at h
  have key : ∀ (m : List Nat), n ∈ m → ∀ (acc r : Rat × Rat × Rat), m.foldlM (demandStep x a) acc ≠ .ok r := by
    intro m
    induction m with
    | nil => intro hm; simp at hm
    | cons k m ih =>
      intro hm acc r h
      rw [List.foldlM_cons] at h
      obtain ⟨st, h1, h2⟩ := except_bind_ok.1 h
      rcases List.mem_cons.1 hm with rfl | hm
      · unfold demandStep at h1
        obtain ⟨d, _, h1⟩ := except_bind_ok.1 h1
        rw [(pyGet_nat_iff _ _ _).2 hl] at h1
        simp [bind, Except.bind, addByType] at h1
      · exact ih hm st r h2
  exact key _ (List.mem_range.2 hn) _ _ h

/-- **C117 (numbering, violated).** The demand is asked for with buses numbered from 1: bus 0 silently is the last bus. The curtailment is asked for
with buses numbered from 0. -/
theorem C117_numbering_violated (x : ApiData) (a : ResultArgs) (hn : 0 < x.noBus) (h1 : x.busLoss.length = x.noBus)
    (h2 : x.pd.length = x.noBus) : getDemand x a 0 = getDemand x a x.noBus := by
  have e : ∀ h t, busDemand x (0 - 1) h t = busDemand x ((x.noBus : Int) - 1) h t := by
    intro h t
    have g : ∀ l : List Rat, l.length = x.noBus → pyGet l (0 - 1) = pyGet l ((x.noBus : Int) - 1) := by
      intro l hl
      unfold pyGet
      have a1 : ¬ ((x.noBus : Int) - 1 < 0) := by omega
      have a2 : ((0 : Int) - 1 < 0) := by omega
      simp only [a1, a2, if_true, if_false, hl]
      have : (0 - 1 + (x.noBus : Int)) = (x.noBus : Int) - 1 := by omega
      rw [this, if_neg a1]
    unfold busDemand
    rw [g _ h1, g _ h2]
    have a1 : ¬ ((x.noBus : Int) - 1 < 0) := by omega
    have a2 : ((0 : Int) - 1 < 0) := by omega
    have e : ((0 : Int) - 1 + x.noBus) = x.noBus - 1 := by omega
    rw [if_neg a1, if_pos a2, e]
  unfold getDemand ApiData.run
  congr 1
  funext h t
  exact e h t

/-- **C117 (constant demand, violated).** Without demand profiles the balance of every period uses the first value of the profiles, the report the value of
the period. -/
theorem C117_constant_violated (x : ApiData) (n h t : Nat) (hnd : x.noDem = 0) (l d p0 pt : Rat) (hl : x.busLoss[n]? = some l)
    (hd : x.pd[n]? = some d) (h0 : x.demand[0]? = some p0) (ht : x.demand[t]? = some pt) :
    busDemand x n h t = .ok ((l + d) / x.base * pt) ∧
    demandAt x.noDem x.links x.demand x.noTime x.noBus x.base l d n t h = .ok ((l + d) / x.base * p0) := by
  constructor
  · unfold busDemand
    rw [(pyGet_nat_iff _ _ _).2 hl, (pyGet_nat_iff _ _ _).2 hd, if_neg (by omega)]
    simp only [bind, Except.bind, add_zero]
    rw [(pyGet_nat_iff _ _ _).2 ht]
  · unfold demandAt busScenario
    rw [if_neg (by omega), if_pos hnd]
    simp only [bind, Except.bind]
    have := (pyGet_nat_iff x.demand 0 p0).2 h0
    simp only [Nat.cast_zero] at this
    first
      | rw [this]
      | (simp only [add_zero]; rw [this])

/-! ## the objective and its parts (C118) -/

/-- **C118.** Without weights of the periods the parts reported add up to the objective. -/
theorem C118_unweighted_partial (noGen noFea noPump noTime noInst : Nat) (w ofaux value : Nat → Rat) (base penalty : Rat)
    (cost fea pump : Nat → Nat → Nat → Rat) (hw : ∀ t < noTime, w t = 1) :
    ofParts noGen noFea noPump noTime noInst ofaux value base penalty cost fea pump =
      ofRule noGen noFea noPump noTime noInst w ofaux value base penalty cost fea pump := by
  have h1 : ∀ f : Nat → Rat, ((List.range noTime).map (fun t => f t * w t)).sum = ((List.range noTime).map f).sum := by
    intro f
    congr 1
    apply List.map_congr_left
    intro t ht
    rw [hw t (List.mem_range.1 ht), mul_one]
  unfold ofParts ofRule
  simp only [h1, sum_map_add', add_mul, sub_mul]
  rw [sum_comm']
  rw [show (List.range noInst).map (fun xh =>
      ((List.range noTime).map (fun xt => ((List.range noGen).map (fun xg => cost xh xg xt)).sum)).sum * ofaux xh +
        ((List.range noTime).map (fun xt => ((List.range noFea).map (fun xf => fea xh xf xt)).sum * penalty)).sum * ofaux xh -
        ((List.range noPump).map (fun xd => value xd * base * ((List.range noTime).map (fun xt => pump xh (xd + 1) xt)).sum)).sum * ofaux xh) =
      (List.range noInst).map (fun xh =>
      (((List.range noTime).map (fun xt => ((List.range noGen).map (fun xg => cost xh xg xt)).sum)).sum * ofaux xh +
        ((List.range noTime).map (fun xt => ((List.range noFea).map (fun xf => fea xh xf xt)).sum * penalty)).sum * ofaux xh) +
        -(((List.range noPump).map (fun xd => value xd * base * ((List.range noTime).map (fun xt => pump xh (xd + 1) xt)).sum)).sum * ofaux xh))
      from List.map_congr_left (fun _ _ => by ring)]
  rw [sum_map_add', sum_map_add']
  have h2 : ∀ (l : List Nat) (f : Nat → Rat), (l.map (fun a => - f a)).sum = - (l.map f).sum := by
    intro l f
    induction l with
    | nil => simp
    | cons a l ih => simp only [List.map_cons, List.sum_cons, ih]; ring
  rw [h2]
  have h3 : (List.range noInst).map (fun xh => ((List.range noGen).map (fun xg =>
      ((List.range noTime).map (fun xt => cost xh xg xt)).sum * ofaux xh)).sum) =
      (List.range noInst).map (fun xh =>
      ((List.range noTime).map (fun xt => ((List.range noGen).map (fun xg => cost xh xg xt)).sum)).sum * ofaux xh) := by
    apply List.map_congr_left
    intro xh _
    rw [sum_map_mul_right', sum_comm']
  rw [h3]
  ring

/-- **C118 (weights, violated).** With weights they do not: one unit and one period of weight different from 1 are enough. -/
theorem C118_weights_violated (w ofaux value : Nat → Rat) (base penalty c : Rat) (hw : w 0 ≠ 1) (hc : c ≠ 0) (ho : ofaux 0 ≠ 0) :
    ofParts 1 0 0 1 1 ofaux value base penalty (fun _ _ _ => c) (fun _ _ _ => 0) (fun _ _ _ => 0) ≠
      ofRule 1 0 0 1 1 w ofaux value base penalty (fun _ _ _ => c) (fun _ _ _ => 0) (fun _ _ _ => 0) := by
  simp only [ofParts, ofRule, List.range_one, List.map_cons, List.map_nil, List.sum_cons, List.sum_nil, List.range_zero]
  intro h
  have : c * ofaux 0 * (w 0 - 1) = 0 := by linarith
  rcases mul_eq_zero.1 this with h | h
  · exact mul_ne_zero hc ho h
  · exact hw (by linarith)

/-! ## profiles (C119, C120) -/

/-- replacing a block -/
theorem block_replace {l v : List Rat} {k n N : Nat} (hl : l.length = n * N) (hk : k < N) (hv : v.length = n) :
    ∀ j t, j < N → t < n →
      (l.take (k * n) ++ v ++ l.drop ((k + 1) * n))[j * n + t]? = if j = k then v[t]? else l[j * n + t]? := by
  intro j t hj ht
  have b1 : (k + 1) * n ≤ l.length := by
    rw [hl, Nat.mul_comm n N]
    exact Nat.mul_le_mul_right _ hk
  have b2 : (k + 1) * n = k * n + n := by ring
  have htk : (l.take (k * n)).length = k * n := by rw [List.length_take]; omega
  rcases Nat.lt_trichotomy j k with h | h | h
  · have : (j + 1) * n ≤ k * n := Nat.mul_le_mul_right _ h
    have e : (j + 1) * n = j * n + n := by ring
    rw [if_neg (by omega), List.append_assoc, List.getElem?_append_left (by omega), List.getElem?_take, if_pos (by omega)]
  · subst h
    rw [if_pos rfl, List.append_assoc, List.getElem?_append_right (by omega), htk, List.getElem?_append_left (by omega)]
    congr 1
    omega
  · have : (k + 1) * n ≤ j * n := Nat.mul_le_mul_right _ h
    rw [if_neg (by omega), List.getElem?_append_right (by rw [List.length_append, htk]; omega), List.length_append, htk, List.getElem?_drop]
    congr 1
    omega

theorem sliceBound_nat (n m : Nat) (h : m ≤ n) : sliceBound n (m : Int) = m := by
  unfold sliceBound
  rw [if_neg (by omega), Int.toNat_natCast]
  omega

theorem sliceAssign_eq {l v : List Rat} {a b : Int} {i j : Nat} (ha : sliceBound l.length a = i) (hb : sliceBound l.length b = j)
    (hij : i ≤ j) (hv : v.length = j - i) : sliceAssign l a b v = .ok (l.take i ++ v ++ l.drop j) := by
  unfold sliceAssign
  simp only [ha, hb, Nat.max_eq_right hij]
  rw [if_pos hv]

/-- assigning a block -/
theorem sliceAssign_block {l v : List Rat} {k n N : Nat} (hl : l.length = n * N) (hk : k < N) (hv : v.length = n) :
    sliceAssign l (((k : Int) + 1 - 1) * n) (((k : Int) + 1) * n) v = .ok (l.take (k * n) ++ v ++ l.drop ((k + 1) * n)) := by
  have b1 : (k + 1) * n ≤ l.length := by
    rw [hl, Nat.mul_comm n N]
    exact Nat.mul_le_mul_right _ hk
  have b2 : (k + 1) * n = k * n + n := by ring
  have e1 : ((k : Int) + 1 - 1) * n = ((k * n : Nat) : Int) := by push_cast; ring
  have e2 : ((k : Int) + 1) * n = (((k + 1) * n : Nat) : Int) := by push_cast; ring
  rw [e1, e2]
  exact sliceAssign_eq (sliceBound_nat _ _ (by omega)) (sliceBound_nat _ _ b1) (by omega) (by omega)

/-- **C119.** Setting the demand profile of a scenario stores exactly the profile and leaves the other scenarios as they are; the number of values does not
change. -/
theorem C119_set_partial (noTime number : Nat) (demand value : List Rat) (k : Nat) (hk : k < number) (hl : demand.length = noTime * number)
    (hv : value.length = noTime) :
    ∃ r, setDemand noTime number demand ((k : Int) + 1) value = .ok r ∧ r.length = demand.length ∧
      ∀ j t, j < number → t < noTime → r[j * noTime + t]? = if j = k then value[t]? else demand[j * noTime + t]? := by
  refine ⟨_, ?_, ?_, block_replace hl hk hv⟩
  · unfold setDemand
    rw [if_pos (by omega)]
    unfold checkProfile
    rw [if_neg (by simp [hv])]
    simp only [bind, Except.bind]
    exact sliceAssign_block hl hk hv
  · have b1 : (k + 1) * noTime ≤ demand.length := by
      rw [hl, Nat.mul_comm noTime number]
      exact Nat.mul_le_mul_right _ hk
    have b2 : (k + 1) * noTime = k * noTime + noTime := by ring
    rw [List.length_append, List.length_append, List.length_take, List.length_drop]
    omega

/-- **C119 (beyond).** A scenario that does not exist is ignored: the user is not told. -/
theorem C119_beyond_violated (noTime number : Nat) (demand value : List Rat) (i : Int) (h : (number : Int) < i) :
    setDemand noTime number demand i value = .ok demand := by
  unfold setDemand
  rw [if_neg (by omega)]

/-- **C119 (negative numbers, violated).** A negative number does not raise: −1 overwrites the last scenario but one. -/
theorem C119_negative_violated (noTime n : Nat) (demand value : List Rat) (hl : demand.length = noTime * (n + 2)) (hv : value.length = noTime)
    (h0 : 0 < noTime) : ∃ r, setDemand noTime (n + 2) demand (-1) value = .ok r ∧ r.length = demand.length ∧
      ∀ j t, j < n + 2 → t < noTime → r[j * noTime + t]? = if j = n then value[t]? else demand[j * noTime + t]? := by
  have b : noTime * (n + 2) = n * noTime + noTime + noTime := by ring
  have b2 : (n + 1) * noTime = n * noTime + noTime := by ring
  refine ⟨demand.take (n * noTime) ++ value ++ demand.drop ((n + 1) * noTime), ?_, ?_, block_replace hl (by omega) hv⟩
  · unfold setDemand
    rw [if_pos (by omega)]
    unfold checkProfile
    rw [if_neg (by simp [hv])]
    simp only [bind, Except.bind]
    refine sliceAssign_eq ?_ ?_ (by omega) (by omega)
    · unfold sliceBound
      have e1 : (-1 - 1 : Int) * noTime = -(noTime : Int) - noTime := by ring
      rw [e1, if_pos (by omega), hl, b]
      generalize n * noTime = q
      omega
    · unfold sliceBound
      have e2 : (-1 : Int) * noTime = -(noTime : Int) := by ring
      rw [e2, if_pos (by omega), hl, b, b2]
      generalize n * noTime = q
      omega
  · rw [List.length_append, List.length_append, List.length_take, List.length_drop]
    omega

/-- **C119 (number 0, violated).** Number 0 raises an error about sizes. -/
theorem C119_zero_violated (noTime number : Nat) (demand value : List Rat) (hv : value.length = noTime)
    (h0 : 2 ≤ noTime) : setDemand noTime number demand 0 value = .error .value := by
  unfold setDemand
  rw [if_pos (by omega)]
  unfold checkProfile
  rw [if_neg (by simp [hv])]
  simp only [bind, Except.bind]
  unfold sliceAssign sliceBound
  simp only [zero_mul]
  rw [if_neg (show ¬ ((0 : Int) < 0) by omega)]
  simp only [Int.toNat_zero, Nat.zero_min, Nat.max_zero, Nat.sub_self]
  rw [if_neg (by omega)]
  match value, hv with
  | [], hv => simp
  | [x], hv => simp at hv; omega
  | _ :: _ :: _, _ => rfl

/-- **C119 (averages).** A profile of other length is averaged for a model of one period; for two periods the profile of a day of 24 hours becomes the mean of the 19 hours off peak and
of the 5 hours of the peak, which keeps the energy of the day; other models refuse it. -/
theorem C119_average_partial (value : List Rat) :
    (value.length ≠ 1 → checkProfile 1 value = .ok [value.sum / value.length]) ∧
    (value.length = 24 → ∃ a b, checkProfile 2 value = .ok [a, b] ∧
      a = ((value.take 15).sum + (value.drop 20).sum) / 19 ∧ b = ((value.drop 15).take 5).sum / 5 ∧ 19 * a + 5 * b = value.sum) ∧
    (∀ n, 3 ≤ n → value.length ≠ n → checkProfile n value = .error .runtime) ∧
    (checkProfile value.length value = .ok value) := by
  refine ⟨?_, ?_, ?_, ?_⟩
  · intro h
    simp [checkProfile, h, npMean]
  · intro h
    have t1 : pySlice value 0 15 = value.take 15 := by simp [pySlice, sliceBound, h]
    have t2 : pySlice value 20 24 = value.drop 20 := by
      simp only [pySlice, sliceBound, h]
      rw [show (value.take (if (24 : Int) < 0 then (24 + (24 : Nat) : Int).toNat else min (24 : Int).toNat 24)) = value from
        List.take_of_length_le (by simp [h])]
      rfl
    have t3 : pySlice value 15 20 = (value.drop 15).take 5 := by
      simp only [pySlice, sliceBound, h]
      rw [List.take_drop]
      rfl
    refine ⟨_, _, ?_, rfl, rfl, ?_⟩
    · unfold checkProfile
      rw [if_pos (by omega), if_neg (by omega), if_pos rfl, t1, t2, t3]
      unfold npMean
      congr 3
      rw [List.length_take, List.length_drop, h]
      norm_num
    · have e : value = value.take 15 ++ ((value.drop 15).take 5 ++ value.drop 20) := by
        conv_lhs => rw [← List.take_append_drop 15 value, ← List.take_append_drop 5 (value.drop 15), List.drop_drop]
      have s := congrArg List.sum e
      rw [List.sum_append, List.sum_append] at s
      rw [s]
      ring
  · intro n hn h
    unfold checkProfile
    rw [if_pos h, if_neg (by omega), if_neg (by omega)]
  · simp [checkProfile]

/-- **C119 (other lengths, violated).** For two periods only the first 24 values count, whatever the length: in a constant profile of 48 half hours nothing is wrong, but the values of the second half
can be changed without effect; a profile of 12 values is divided by 19 anyway. -/
theorem C119_lengths_violated (value rest : List Rat) (hv : value.length = 24) :
    checkProfile 2 (value ++ rest) = checkProfile 2 value ∧
    checkProfile 2 (List.replicate 16 1) = .ok [15 / 19, 1] := by
  constructor
  · have hs : ∀ a b : Nat, a ≤ 24 → b ≤ 24 → pySlice (value ++ rest) a b = pySlice value a b := by
      intro a b ha hb
      unfold pySlice sliceBound
      rw [if_neg (by omega), if_neg (by omega), if_neg (by omega), if_neg (by omega), List.length_append, hv]
      simp only [Int.toNat_natCast]
      rw [Nat.min_eq_left (by omega), Nat.min_eq_left (by omega), Nat.min_eq_left (by omega), Nat.min_eq_left (by omega),
        List.take_append_of_le_length (by omega)]
    unfold checkProfile
    rw [if_pos (show (value ++ rest).length ≠ 2 by rw [List.length_append]; omega), if_pos (show value.length ≠ 2 by omega)]
    have a1 := hs 0 15 (by omega) (by omega)
    have a2 := hs 20 24 (by omega) (by omega)
    have a3 := hs 15 20 (by omega) (by omega)
    simp only [Nat.cast_zero, Nat.cast_ofNat] at a1 a2 a3
    rw [a1, a2, a3]
    rfl
  · decide +kernel

/-- **C119 (initial profiles).** The values given come first, the rest is 1; values beyond the last scenario raise. -/
theorem C119_initial_partial (noTime noDem : Nat) (given : List Rat) :
    (given.length ≤ noTime * noDem → ∃ r, initialDemand noTime noDem given = .ok r ∧ r.length = noTime * noDem ∧
      ∀ i, i < noTime * noDem → r[i]? = if i < given.length then given[i]? else some 1) ∧
    (noTime * noDem < given.length → initialDemand noTime noDem given = .error .index) := by
  constructor
  · intro h
    refine ⟨given ++ List.replicate (noTime * noDem - given.length) 1, ?_, ?_, ?_⟩
    · unfold initialDemand
      rw [if_neg (by omega)]
    · rw [List.length_append, List.length_replicate]
      omega
    · intro i hi
      split
      · rw [List.getElem?_append_left (by omega)]
      · rw [List.getElem?_append_right (by omega), List.getElem?_replicate, if_pos (by omega)]
  · intro h
    unfold initialDemand
    rw [if_pos h]

example : setDemand 2 3 [1, 1, 1, 1, 1, 1] 2 [5, 7] = .ok [1, 1, 5, 7, 1, 1] := by decide +kernel

/-- the loop of `set_RES` -/
theorem resLoop_fold (base : Rat) (value : List Rat) (k n : Nat) (hv : value.length = n) : ∀ (m : Nat) (res : List Rat), m ≤ n → k * n + n ≤ res.length →
    ∃ r, (List.range m).foldlM (resLoop base value (((k : Int) + 1 - 1) * n)) res = .ok r ∧ r.length = res.length ∧
      ∀ i, r[i]? = if k * n ≤ i ∧ i < k * n + m then (value[i - k * n]?).map (· / base) else res[i]? := by
  intro m
  induction m with
  | zero =>
    intro res _ _
    refine ⟨res, rfl, rfl, ?_⟩
    intro i
    rw [if_neg (by omega)]
  | succ m ih =>
    intro res hm hr
    obtain ⟨r, h1, h2, h3⟩ := ih res (by omega) hr
    have e1 : ((k : Int) + 1 - 1) * n = ((k * n : Nat) : Int) := by push_cast; ring
    have hg := List.getElem?_eq_getElem (show m < value.length by omega)
    refine ⟨r.set (k * n + m) (value[m]'(by omega) / base), ?_, by rw [List.length_set, h2], ?_⟩
    · rw [List.range_succ, List.foldlM_append, h1]
      simp only [bind, Except.bind, List.foldlM_cons, List.foldlM_nil]
      unfold resLoop
      rw [npGet_some hg, e1]
      simp only [bind, Except.bind]
      have hj : ¬ (((k * n : Nat) : Int) + (m : Int) < 0) := by omega
      simp only [hj, if_false]
      rw [if_neg (by rw [h2, false_or]; clear h3 h1 ih; generalize k * n = q at *; omega)]
      simp only [pure, Except.pure]
      congr 2
    · intro i
      rw [List.getElem?_set]
      split
      · rename_i h
        subst h
        rw [if_pos (by rw [h2]; omega), if_pos (by omega)]
        rw [show k * n + m - k * n = m by omega, hg]
        rfl
      · rw [h3]
        by_cases hc : k * n ≤ i ∧ i < k * n + m
        · rw [if_pos hc, if_pos (by omega)]
        · rw [if_neg hc, if_neg (by omega)]

/-- **C120.** Setting the profile of a renewable unit stores it per unit and leaves the profiles of the others as they are. -/
theorem C120_set (noTime noRES : Nat) (base : Rat) (o : ResOverwrite) (res value : List Rat) (k : Nat) (hk : k < noRES)
    (hl : res.length = noTime * noRES) (hv : value.length = noTime) (ho : ((k : Int) + 1) ∉ o.idx) :
    ∃ r, setRES noTime noRES base o res ((k : Int) + 1) value = .ok r ∧ r.length = res.length ∧
      ∀ j t, j < noRES → t < noTime →
        r[j * noTime + t]? = if j = k then (value[t]?).map (· / base) else res[j * noTime + t]? := by
  have b1 : (k + 1) * noTime ≤ res.length := by
    rw [hl, Nat.mul_comm noTime noRES]
    exact Nat.mul_le_mul_right _ hk
  have b2 : (k + 1) * noTime = k * noTime + noTime := by ring
  have hlen : (res.take (k * noTime) ++ value ++ res.drop ((k + 1) * noTime)).length = res.length := by
    rw [List.length_append, List.length_append, List.length_take, List.length_drop]
    omega
  obtain ⟨r, h1, h2, h3⟩ := resLoop_fold base value k noTime hv noTime (res.take (k * noTime) ++ value ++ res.drop ((k + 1) * noTime)) le_rfl
    (by omega)
  refine ⟨r, ?_, by omega, ?_⟩
  · unfold setRES resValue
    rw [List.findIdx?_eq_none_iff.2 (by intro x hx; simp; rintro rfl; exact ho hx)]
    simp only [bind, Except.bind]
    rw [if_pos (by omega)]
    unfold checkProfile
    rw [if_neg (by simp [hv])]
    simp only []
    rw [sliceAssign_block hl hk hv]
    exact h1
  · intro j t hj ht
    rw [h3]
    rcases Nat.lt_trichotomy j k with h | h | h
    · have : (j + 1) * noTime ≤ k * noTime := Nat.mul_le_mul_right _ h
      have e : (j + 1) * noTime = j * noTime + noTime := by ring
      rw [if_neg (by omega), block_replace hl hk hv j t hj ht, if_neg (by omega), if_neg (by omega)]
    · subst h
      rw [if_pos (by omega), if_pos rfl]
      congr 2
      omega
    · have : (k + 1) * noTime ≤ j * noTime := Nat.mul_le_mul_right _ h
      rw [if_neg (by omega), block_replace hl hk hv j t hj ht, if_neg (by omega), if_neg (by omega)]

/-- **C120 (overwritten).** A unit that is overwritten gets the overwriting profile, whatever the user passes. -/
theorem C120_overwrite (noTime noRES : Nat) (base : Rat) (o : ResOverwrite) (res v1 v2 : List Rat) (i : Int) (h : i ∈ o.idx) :
    setRES noTime noRES base o res i v1 = setRES noTime noRES base o res i v2 := by
  unfold setRES resValue
  cases hf : o.idx.findIdx? (· = i) with
  | none =>
    have := List.findIdx?_eq_none_iff.1 hf i h
    simp at this
  | some k => rfl

example : setRES 2 2 100 {} [0, 0, 0, 0] 2 [50, 70] = .ok [0, 0, 1 / 2, 7 / 10] ∧
    setRES 2 2 100 { idx := [2], links := [0], profs := [[10, 20]] } [0, 0, 0, 0] 2 [50, 70] = .ok [0, 0, 1 / 10, 1 / 5] := by
  constructor <;> decide +kernel

/-! ## capacities and status (C121) -/

/-- **C121.** A capacity in MW is stored per unit; switching off stores 0. -/
theorem C121_capacity_partial (base max v : Rat) (hb : base ≠ 0) :
    setGenCoFlag base max (.capacity v) * base = v ∧ setGenCoFlag base max (.flag false) = 0 := by
  refine ⟨?_, rfl⟩
  simp only [setGenCoFlag]
  exact div_mul_cancel₀ v hb

/-- **C121 (switching on, violated).** Switching a generator on changes the capacity of a generator that is on, unless it is zero or the base is 1, and does not bring back one that was
switched off. -/
theorem C121_on_violated (base max : Rat) (hb : base ≠ 0) :
    (setGenCoFlag base max (.flag true) = max ↔ max = 0 ∨ base = 1) ∧
    setGenCoFlag base (setGenCoFlag base max (.flag false)) (.flag true) = 0 := by
  constructor
  · simp only [setGenCoFlag]
    rw [div_eq_iff hb]
    constructor
    · intro h
      have : max * (base - 1) = 0 := by linarith
      rcases mul_eq_zero.1 this with h | h
      · exact Or.inl h
      · exact Or.inr (by linarith)
    · rintro (h | h) <;> simp [h]
  · simp [setGenCoFlag]

/-- **C121 (status).** Setting the status of an element other than the first changes exactly that element. -/
theorem C121_status_partial (statuses : List Bool) (i : Nat) (hi : 0 < i) (hl : i < statuses.length) (b : Bool) :
    ∃ r, setStatus statuses (some i) b = .ok r ∧ r.length = statuses.length ∧ r[i]? = some b ∧ ∀ j, j ≠ i → r[j]? = statuses[j]? := by
  refine ⟨statuses.set i b, ?_, List.length_set, ?_, ?_⟩
  · unfold setStatus
    simp only
    rw [if_neg (by omega), if_neg (by omega), if_neg (by omega), Int.toNat_natCast]
  · rw [List.getElem?_set_self hl]
  · intro j hj
    rw [List.getElem?_set_ne (by omega)]

/-- **C121 (first element, violated).** The first element, number 0, cannot be set: the function takes 0 for a missing number. -/
theorem C121_first_violated (statuses : List Bool) (b : Bool) : setStatus statuses (some 0) b = .error .value := rfl

/-! ## concrete cases for C114, C115 and C116 -/

def exCoupled : List EnPeriod :=
  [⟨1, [1], .vec [0], .vec [0], false⟩, ⟨2, [1 / 2, 1 / 2], .vec [0, 0], .vec [0, 0], false⟩]

def exCoupledTree : EnTree :=
  ⟨[⟨(0, 0), (0, 0)⟩, ⟨(0, 0), (3, 1)⟩, ⟨(1, 0), (2, 0)⟩, ⟨(2, 1), (3, 0)⟩], [(1, 1), (2, 3), (0, 0), (0, 0)],
    [(0, 1), (0, 1), (0, 0), (1, 1)], [0, 0, 0, 0], [0, 1, 2, 3], [(0, 0), (1, 1), (2, 3)]⟩

def exCoupledLinks : EnLinks := ⟨[(0, 0), (0, 0), (1, 0), (2, 1)], [(0, 0, 0), (1, 3, 1), (2, 2, 0), (3, 3, 0)], [], 0⟩

def exCoupledWeights : EnWeights := ⟨[1, 1, 1 / 2, 1 / 2], [[0], [0], [0], [0]], [[0], [0], [0], [0]]⟩

/-- 100 MWh, of which 10 and 20 are used in the two instances -/
def exSoc (x e : Nat) : Rat :=
  match x, e with
  | 1, 0 => 100
  | 1, 1 => 85
  | 2, 0 => 90
  | 2, 1 => 95
  | 3, 0 => 75
  | 3, 1 => 85
  | _, _ => 0

def exOut (x : Nat) : Rat := if x = 2 then 10 else if x = 3 then 20 else 0

/-- the generation in the two instances -/
def exHydroGen (p _ : Nat) : Rat := if p = 0 then 10 else 20

/-- the hypotheses of C114 and C115 hold in a case with two equally likely outcomes -/
theorem C115_witness : ∃ OF, enInitialise exCoupled (some 1) = .ok (⟨2, [1, 2], 4, 2, 1, 4⟩, exCoupledTree, exCoupledWeights, exCoupledLinks) ∧
    ofWeights ⟨2, [1, 2], 4, 2, 1, 4⟩ exCoupledTree exCoupledWeights = .ok OF ∧ OF = [1 / 2, 1 / 2] ∧
    EnFeasible exCoupledLinks (fun x => exCoupledWeights.wght.getD x 0) (fun x => if x = 1 then 100 else 0) exOut exSoc ∧
    ((List.range OF.length).map (fun j => OF.getD j 0 * (((List.range 1).map (fun xt => exHydroGen (j * 1 + (0 + 0)) xt * (([1] : List Rat)[xt]?).getD 0)).sum * 1))).sum ≤ 1 * 100 := by
  have h1 : enInitialise exCoupled (some 1) = .ok (⟨2, [1, 2], 4, 2, 1, 4⟩, exCoupledTree, exCoupledWeights, exCoupledLinks) := by decide +kernel
  have h2 : ofWeights ⟨2, [1, 2], 4, 2, 1, 4⟩ exCoupledTree exCoupledWeights = .ok [1 / 2, 1 / 2] := by decide +kernel
  have h3 : EnFeasible exCoupledLinks (fun x => exCoupledWeights.wght.getD x 0) (fun x => if x = 1 then 100 else 0) exOut exSoc := by
    refine ⟨by decide +kernel, ?_, ?_, ?_⟩
    · intro x b hb
      have hx : x = 0 ∨ x = 1 ∨ x = 2 ∨ x = 3 := by
        have := (List.getElem?_eq_some_iff.1 hb).1
        simp [exCoupledLinks] at this
        omega
      rcases hx with rfl | rfl | rfl | rfl <;> simp [exCoupledLinks] at hb <;> subst hb <;> decide +kernel
    · intro r hr b hb
      simp only [exCoupledLinks, List.mem_cons, List.not_mem_nil, or_false] at hr
      rcases hr with rfl | rfl | rfl | rfl <;> simp [exCoupledLinks] at hb <;> subst hb <;> decide +kernel
    · intro h
      exact absurd rfl h
  have hs : ∀ x e, 0 ≤ exSoc x e := by
    intro x e
    unfold exSoc
    split <;> norm_num
  have ho : ∀ x, 0 ≤ exOut x := by
    intro x
    unfold exOut
    split
    · norm_num
    · split <;> norm_num
  refine ⟨_, h1, h2, rfl, h3, ?_⟩
  refine C115_water exCoupled (by decide +kernel) ⟨1, [1], .vec [0], .vec [0], false⟩ rfl rfl (by decide +kernel) (by decide +kernel) 1 _ _ _ _ h1
    (by decide +kernel) _ h2 100 _ exOut ⟨rfl, fun x hx => if_neg hx⟩ ho exSoc h3 hs exHydroGen 1 0 [1] 1 1 0 ?_
  intro j p hj hp
  have hj' : j = 0 ∨ j = 1 := by simp at hj; omega
  rcases hj' with rfl | rfl
  · have : pyeneE ⟨2, [1, 2], 4, 2, 1, 4⟩ exCoupledTree 0 = .ok 2 := by decide +kernel
    rw [this, Except.ok.injEq] at hp
    subst hp
    decide +kernel
  · have : pyeneE ⟨2, [1, 2], 4, 2, 1, 4⟩ exCoupledTree 1 = .ok 3 := by decide +kernel
    rw [this, Except.ok.injEq] at hp
    subst hp
    decide +kernel

/-- the example of the dispatch, seen by the user: one period, one instance -/
def exApi : ApiData :=
  { sizes := ⟨2, 3, 2, 3, 1, 2, 0, 0, 0⟩, noTime := 1, noInst := 1, weights := [2], ofaux := [1], base := 100, noBus := 3, busLoss := [0, 0, 0],
    pd := [0, 1000, 500], noDem := 1, links := [1, 1, 1], demand := [1], llFea := (feaLoop [0, 1000, 500] 0).1,
    loadTypes := [.num 0, .num 0, .num 1], conv := 2, hydro := 0, losses := true }

def exApiVals : ApiVals := ⟨fun i _ => exDpVals.gen i, fun i _ => exDpVals.pump i, fun i _ => exDpVals.fea i⟩

/-- the hypotheses of C116 hold in the example -/
theorem C116_witness : ∃ g cu d p, getAllGeneration exApi exApiVals {} .all = .ok g ∧ getAllCurtailment exApi exApiVals {} = .ok cu ∧
    getAllDemand exApi {} = .ok d ∧ getAllPumps exApi exApiVals {} = .ok p ∧
    g + cu.1 = d.1 + p + exApi.total {} (fun _ _ => ((List.range exDpBranches.length).map exDpVals.loss).sum) := by
  obtain ⟨c, h, hc, _⟩ := exDpCase_of true
  have hdem : c.demand = [0, 10, 5] := by
    have : (match exDpCase true with | .ok c => decide (c.demand = [0, 10, 5]) | .error _ => false) = true := by decide +kernel
    rw [h] at this
    simpa using this
  have hb : ∀ n < 3, Balanced c exDpVals n 0 := by
    have key : ∀ n x, exDpSides true n 0 = .ok (x, x) → Balanced c exDpVals n 0 := by
      intro n x hx
      unfold exDpSides at hx
      rw [h] at hx
      exact ⟨x, x, hx, rfl⟩
    intro n hn
    have : n = 0 ∨ n = 1 ∨ n = 2 := by omega
    rcases this with rfl | rfl | rfl
    · exact key 0 15 (by decide +kernel)
    · exact key 1 13 (by decide +kernel)
    · exact key 2 5 (by decide +kernel)
  have ha : ArgsOk exApi {} := by
    constructor <;> decide +kernel
  refine C116_conservation [1, 2, 3] exDpBranches (exDpSettings true) exDpConv [] exDpRes [2] rfl (by decide) (by decide) exApi exApiVals
    (fun _ i _ => exDpVals.flow i) (fun _ i _ => exDpVals.loss i) {} ha ?_ rfl (by decide) rfl (by decide +kernel) rfl rfl rfl (by decide) rfl
    (fun _ _ => c) (fun _ _ _ _ => hc) ?_ ?_ ?_ rfl
  · intro n hn
    have : n = 0 ∨ n = 1 ∨ n = 2 := by simp [exApi] at hn; omega
    rcases this with rfl | rfl | rfl
    · left; rfl
    · left; rfl
    · right; rfl
  · intro h hh t ht n l p hn hl hp
    have e1 : h = 0 := by simpa [ApiData.scensOf, exApi] using hh
    have e2 : t = 0 := by simpa [ApiData.timesOf, exApi] using ht
    subst e1 e2
    have : n = 0 ∨ n = 1 ∨ n = 2 := by simp [exApi] at hn; omega
    rcases this with rfl | rfl | rfl <;> simp [exApi] at hl hp <;> subst hl hp <;> rw [hdem]
    · exact ⟨0, by decide +kernel, rfl⟩
    · exact ⟨10, by decide +kernel, rfl⟩
    · exact ⟨5, by decide +kernel, rfl⟩
  · intro h hh t _
    have e1 : h = 0 := by simpa [ApiData.scensOf, exApi] using hh
    subst e1
    rfl
  · intro h hh t _ n hn
    have e1 : h = 0 := by simpa [ApiData.scensOf, exApi] using hh
    subst e1
    have := hb n hn
    have e : instVals exApi exApiVals (fun _ i _ => exDpVals.flow i) (fun _ i _ => exDpVals.loss i) 0 t = exDpVals := by
      unfold instVals exApiVals
      simp
    rw [e]
    exact this

end Pyensys
