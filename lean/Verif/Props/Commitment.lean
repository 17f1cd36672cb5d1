import Verif.Model.Commitment
import Verif.Props.Dispatch
import Verif.Props.ScreeningLP

/-!
# Unit commitment, limits, ramps, baseload, cooling, RES limits (C107-C112)
-/

namespace Pyensys

/-! ## periods -/

theorem llucFrom_get (N : Nat) (hN : 2 ≤ N) : ∀ (k x1 x : Nat), x1 < N → x < k → (llucFrom N k x1)[x]? = some ((x1 + x) % N) := by
  intro k
  induction k with
  | zero => intro x1 x _ h; omega
  | succ k ih =>
    intro x1 x h1 h
    unfold llucFrom
    cases x with
    | zero => simp [Nat.mod_eq_of_lt h1]
    | succ x =>
      rw [List.getElem?_cons_succ, ih _ x (by split <;> omega) (by omega)]
      congr 1
      split
      · rename_i e
        rw [show x1 + (x + 1) = N + x by omega, Nat.add_mod_left, Nat.zero_add]
      · congr 1; omega

theorem lluc_length (N : Nat) : (lluc N).length = N * 2 := by
  have : ∀ k x, (llucFrom N k x).length = k := by
    intro k
    induction k with
    | zero => intro x; rfl
    | succ k ih => intro x; simp [llucFrom, ih]
  exact this _ _

theorem lluc_get (N x : Nat) (hN : 2 ≤ N) (hx : x < N * 2) : (lluc N)[x]? = some ((x + 1) % N) := by
  unfold lluc
  rw [llucFrom_get N hN _ 1 x (by omega) hx, Nat.add_comm]

/-- the periods used by the rules of period `t ≥ 1`: `t`, …, `t + M - 1`, cyclic -/
theorem slice_later (N t M : Nat) (hN : 2 ≤ N) (ht : 1 ≤ t) (htN : t < N) (hM : M ≤ N) :
    pySlice (lluc N) ((t : Int) - 1) ((t : Int) + M - 1) = (List.range M).map (fun k => (t + k) % N) := by
  unfold pySlice sliceBound
  have h1 : ¬ ((t : Int) - 1 < 0) := by omega
  have h2 : ¬ ((t : Int) + (M : Int) - 1 < 0) := by omega
  rw [if_neg h1, if_neg h2, lluc_length]
  have e1 : min ((t : Int) - 1).toNat (N * 2) = t - 1 := by omega
  have e2 : min ((t : Int) + (M : Int) - 1).toNat (N * 2) = t + M - 1 := by omega
  rw [e1, e2]
  apply List.ext_getElem?
  intro k
  rw [List.getElem?_drop, List.getElem?_take, List.getElem?_map]
  by_cases hk : k < M
  · rw [if_pos (by omega), lluc_get N _ hN (by omega), List.getElem?_range hk]
    simp only [Option.map_some]
    congr 2; omega
  · rw [if_neg (by omega), List.getElem?_eq_none (by simp; omega)]
    rfl

/-- the rules of the first period use no period at all -/
theorem slice_first (N M : Nat) (hM : M ≤ N) : pySlice (lluc N) (((0 : Nat) : Int) - 1) (((0 : Nat) : Int) + M - 1) = [] := by
  unfold pySlice sliceBound
  rw [lluc_length]
  apply List.drop_eq_nil_of_le
  rw [List.length_take, lluc_length]
  by_cases h : ((0 : Nat) : Int) + (M : Int) - 1 < 0
  · rw [if_pos h, if_pos (by omega)]; omega
  · rw [if_neg h, if_pos (by omega)]; omega

/-! ## C107: minimum down and up times -/

/-- all terms of a sum of values at most one are one if the sum is at least their number -/
theorem all_one (f : Nat → Rat) : ∀ (l : List Nat), (∀ x ∈ l, f x ≤ 1) → (l.length : Rat) ≤ (l.map f).sum → ∀ x ∈ l, f x = 1 := by
  intro l
  induction l with
  | nil => intro _ _ x hx; simp at hx
  | cons a l ih =>
    intro h1 h2 x hx
    have hle : (l.map f).sum ≤ (l.length : Rat) := by
      have : ∀ (l : List Nat), (∀ x ∈ l, f x ≤ 1) → (l.map f).sum ≤ (l.length : Rat) := by
        intro l
        induction l with
        | nil => intro _; simp
        | cons b l ih2 =>
          intro h
          have := ih2 (fun x hx => h x (List.mem_cons_of_mem _ hx))
          have hb := h b List.mem_cons_self
          simp only [List.map_cons, List.sum_cons, List.length_cons, Nat.cast_add, Nat.cast_one]
          linarith
      exact this l (fun x hx => h1 x (List.mem_cons_of_mem _ hx))
    have ha := h1 a List.mem_cons_self
    simp only [List.map_cons, List.sum_cons, List.length_cons, Nat.cast_add, Nat.cast_one] at h2
    rcases List.mem_cons.1 hx with rfl | hx
    · linarith
    · exact ih (fun x hx => h1 x (List.mem_cons_of_mem _ hx)) (by linarith) x hx

/-- the heart of both rules: an event variable that is at least one forces its `M` following periods -/
theorem times_core (N M t : Nat) (hN : 2 ≤ N) (hM : M ≤ N) (ht : t < N) (ev : Rat) (f : Nat → Rat) (hf : ∀ x, f x ≤ 1)
    (h1 : 1 ≤ ev) (h2 : ev * (M : Rat) ≤ ((pySlice (lluc N) ((t : Int) - 1) ((t : Int) + (M : Nat) - 1)).map f).sum) :
    (t = 0 → M = 0) ∧ ∀ k < M, f ((t + k) % N) = 1 := by
  have hM0 : (0 : Rat) ≤ (M : Rat) := Nat.cast_nonneg M
  have hMe : (M : Rat) ≤ ev * (M : Rat) := le_mul_of_one_le_left hM0 h1
  rcases Nat.eq_zero_or_pos t with rfl | htp
  · rw [slice_first N M hM] at h2
    simp only [List.map_nil, List.sum_nil] at h2
    have : (M : Rat) ≤ 0 := le_trans hMe h2
    have : M = 0 := by
      have h3 : (M : Rat) = 0 := le_antisymm this hM0
      exact_mod_cast h3
    subst this
    exact ⟨fun _ => rfl, fun k hk => absurd hk (by omega)⟩
  · refine ⟨fun e => by omega, fun k hk => ?_⟩
    rw [slice_later N t M hN htp ht hM] at h2
    have := all_one f ((List.range M).map (fun k => (t + k) % N)) (fun x _ => hf x) (by
      simp only [List.length_map, List.length_range]
      exact le_trans hMe h2) ((t + k) % N) (List.mem_map.2 ⟨k, List.mem_range.2 hk, rfl⟩)
    exact this

/-- the `j`-th conventional generator: where it is and that the rules of class 0 apply to it -/
theorem conv_class {numbers : List Int} {base : Rat} {conv hydro res : List DpGenIn} {r : DpGens}
    (h : genInitialise numbers base conv hydro res = .ok r) (i : Nat) (hi : i < conv.length) (o : DpGen)
    (ho : r.classes.flatten[i]? = some o) : ∃ c, r.classes[0]? = some c ∧ o ∈ c ∧ c[i]? = some o := by
  unfold genInitialise at h
  rw [except_bind_ok] at h
  obtain ⟨⟨cls, st⟩, hc, h⟩ := h
  simp only [genClasses] at hc
  rw [except_bind_ok] at hc
  obtain ⟨⟨o0, s0⟩, h0, hc⟩ := hc
  rw [except_bind_ok] at hc
  obtain ⟨⟨q1, st1⟩, hc1, hc⟩ := hc
  simp only [Except.ok.injEq, Prod.mk.injEq] at hc
  obtain ⟨rfl, rfl⟩ := hc
  simp only [Except.ok.injEq] at h
  subst h
  obtain ⟨a1, _⟩ := genClass_spec _ _ _ _ _ _ _ _ h0
  refine ⟨o0, rfl, ?_⟩
  have ho : (o0 :: q1).flatten[i]? = some o := ho
  rw [List.flatten_cons, List.getElem?_append_left (by omega)] at ho
  exact ⟨List.mem_of_getElem? ho, ho⟩

/-- **C107**, minimum down times.  If all committed conventional units before unit `i` also have a minimum down time, then
a unit that was on in a period and is off in the next stays off for its minimum down time (periods follow each other
cyclically). -/
theorem C107_down_partial (numbers : List Int) (base : Rat) (conv hydro res : List DpGenIn) (r : DpGens)
    (h : genInitialise numbers base conv hydro res = .ok r) (N con : Nat) (hN : 2 ≤ N) (v : UcVals) (hv : DomainsOk v)
    (hok : TimesOk r v con N) (i : Nat) (g : DpGenIn) (hi : conv[i]? = some g) (M : Nat) (hM : g.minDown = some M) (hMN : M ≤ N)
    (hbefore : ∀ j < i, ∀ g', conv[j]? = some g' → 0 < g'.max → 0 < g'.min → g'.minDown ≠ none)
    (o : DpGen) (ho : r.classes.flatten[i]? = some o) (b : Nat) (hb : o.bin = some b)
    (t : Nat) (ht : t < N) (hon : v.bin (con + b) (if t = 0 then N - 1 else t - 1) = 1) (hoff : v.bin (con + b) t = 0) :
    ∀ k < M, v.bin (con + b) ((t + k) % N) = 0 := by
  obtain ⟨hil, hig⟩ := List.getElem?_eq_some_iff.1 hi
  obtain ⟨c, hc1, hc2, _⟩ := conv_class h i hil o ho
  have hall : (conv ++ hydro ++ res)[i]? = some g := by
    rw [List.append_assoc, List.getElem?_append_left hil, hi]
  obtain ⟨_, _, _, _, _, h6, _⟩ := genInitialise_spec h
  obtain ⟨o', ho', q1, q2, q3, q4, q5, q6, q7, q8, q9⟩ := h6 i g hall
  rw [ho, Option.some.injEq] at ho'
  subst ho'
  have hfalse : decide ((conv ++ hydro).length ≤ i) = false := by simp; omega
  rw [hfalse] at q7 q8
  rw [q7] at hb
  have hcom : Committed g = true := by
    by_contra hcc
    simp [hcc] at hb
  simp only [hcom, and_self, if_true, Option.some.injEq] at hb
  have hdown : o.vMDT = some b := by
    rw [q8, hM]
    simp only [hcom, Option.isSome_some, and_self, if_true, Option.some.injEq]
    rw [← hb]
    apply List.countP_congr
    intro x hx
    obtain ⟨j, hj, rfl⟩ := List.mem_iff_getElem.1 hx
    have hji : j < i := by rw [List.length_take] at hj; omega
    have hx' : conv[j]? = some (List.take i (conv ++ hydro))[j] := by
      rw [List.getElem_take, List.getElem_append_left (by omega)]
      exact List.getElem?_eq_getElem (by omega)
    have := hbefore j hji _ hx'
    generalize (List.take i (conv ++ hydro))[j] = y at this
    cases hy : y.minDown with
    | none =>
      rw [hy] at this
      simp only [Committed, Bool.and_eq_true, decide_eq_true_eq, Option.isSome_none, Bool.false_eq_true, and_false, false_iff, not_and]
      intro hm hn; exact absurd rfl (this hm hn)
    | some z => simp
  obtain ⟨r1, r2, _, _⟩ := hok 0 c hc1 o hc2 t ht
  unfold downRule1 at r1
  unfold downRule2 at r2
  simp only [ne_eq, not_true_eq_false, if_false, hdown] at r1 r2
  rw [q5, hM] at r2
  have hon' : v.bin (con + b) (llTime N t) = 1 := hon
  rw [hon', hoff] at r1
  have := times_core N M t hN hMN ht _ (fun x => 1 - v.bin (con + b) x) (fun x => by
    rcases (hv (con + b) x).1 with e | e <;> rw [e] <;> norm_num) (by linarith) r2
  intro k hk
  have := this.2 k hk
  linarith

/-- **C107**, minimum up times. -/
theorem C107_up_partial (numbers : List Int) (base : Rat) (conv hydro res : List DpGenIn) (r : DpGens)
    (h : genInitialise numbers base conv hydro res = .ok r) (N con : Nat) (hN : 2 ≤ N) (v : UcVals) (hv : DomainsOk v)
    (hok : TimesOk r v con N) (i : Nat) (g : DpGenIn) (hi : conv[i]? = some g) (M : Nat) (hM : g.minUp = some M) (hMN : M ≤ N)
    (hbefore : ∀ j < i, ∀ g', conv[j]? = some g' → 0 < g'.max → 0 < g'.min → g'.minUp ≠ none)
    (o : DpGen) (ho : r.classes.flatten[i]? = some o) (b : Nat) (hb : o.bin = some b)
    (t : Nat) (ht : t < N) (hoff : v.bin (con + b) (if t = 0 then N - 1 else t - 1) = 0) (hon : v.bin (con + b) t = 1) :
    ∀ k < M, v.bin (con + b) ((t + k) % N) = 1 := by
  obtain ⟨hil, hig⟩ := List.getElem?_eq_some_iff.1 hi
  obtain ⟨c, hc1, hc2, _⟩ := conv_class h i hil o ho
  have hall : (conv ++ hydro ++ res)[i]? = some g := by
    rw [List.append_assoc, List.getElem?_append_left hil, hi]
  obtain ⟨_, _, _, _, _, h6, _⟩ := genInitialise_spec h
  obtain ⟨o', ho', q1, q2, q3, q4, q5, q6, q7, q8, q9⟩ := h6 i g hall
  rw [ho, Option.some.injEq] at ho'
  subst ho'
  have hfalse : decide ((conv ++ hydro).length ≤ i) = false := by simp; omega
  rw [hfalse] at q7 q9
  rw [q7] at hb
  have hcom : Committed g = true := by
    by_contra hcc
    simp [hcc] at hb
  simp only [hcom, and_self, if_true, Option.some.injEq] at hb
  have hup : o.vMUT = some b := by
    rw [q9, hM]
    simp only [hcom, Option.isSome_some, and_self, if_true, Option.some.injEq]
    rw [← hb]
    apply List.countP_congr
    intro x hx
    obtain ⟨j, hj, rfl⟩ := List.mem_iff_getElem.1 hx
    have hji : j < i := by rw [List.length_take] at hj; omega
    have hx' : conv[j]? = some (List.take i (conv ++ hydro))[j] := by
      rw [List.getElem_take, List.getElem_append_left (by omega)]
      exact List.getElem?_eq_getElem (by omega)
    have := hbefore j hji _ hx'
    generalize (List.take i (conv ++ hydro))[j] = y at this
    cases hy : y.minUp with
    | none =>
      rw [hy] at this
      simp only [Committed, Bool.and_eq_true, decide_eq_true_eq, Option.isSome_none, Bool.false_eq_true, and_false, false_iff, not_and]
      intro hm hn; exact absurd rfl (this hm hn)
    | some z => simp
  obtain ⟨_, _, r1, r2⟩ := hok 0 c hc1 o hc2 t ht
  unfold upRule1 at r1
  unfold upRule2 at r2
  simp only [ne_eq, not_true_eq_false, if_false, hup] at r1 r2
  rw [q6, hM] at r2
  have hoff' : v.bin (con + b) (llTime N t) = 0 := hoff
  rw [hoff', hon] at r1
  have := times_core N M t hN hMN ht _ (fun x => v.bin (con + b) x) (fun x => by
    rcases (hv (con + b) x).1 with e | e <;> rw [e] <;> norm_num) (by linarith) r2
  intro k hk
  exact this.2 k hk

/-- **C107**, violated.  No unit whose rules refer to its own binary variable can be switched off in the first period (as
the last period is the one before), however long it stays off: schedules that respect the minimum down time are
excluded. -/
theorem C107_first_period_violated (g : DpGen) (b M N con : Nat) (hN : 2 ≤ N) (hM1 : 1 ≤ M) (hMN : M ≤ N) (hm : g.vMDT = some b)
    (hmd : g.minDown = some M) (v : UcVals) (hv : DomainsOk v)
    (h1 : downRule1 0 g v con N 0) (h2 : downRule2 0 g v con N 0) :
    ¬ (v.bin (con + b) (N - 1) = 1 ∧ v.bin (con + b) 0 = 0) := by
  rintro ⟨hon, hoff⟩
  unfold downRule1 at h1
  unfold downRule2 at h2
  simp only [ne_eq, not_true_eq_false, if_false, hm, hmd] at h1 h2
  have hon' : v.bin (con + b) (llTime N 0) = 1 := hon
  rw [hon', hoff] at h1
  have := times_core N M 0 hN hMN (by omega) _ (fun x => 1 - v.bin (con + b) x) (fun x => by
    rcases (hv (con + b) x).1 with e | e <;> rw [e] <;> norm_num) (by linarith) h2
  have := this.1 rfl
  omega

/-- **C107**, violated.  With a committed unit without minimum times before it, the rules of the second unit refer to the
binary variable of the first: whatever the second unit does, the rules on minimum times can be met. -/
theorem C107_other_unit_violated (numbers : List Int) (base : Rat) (g0 g1 : DpGenIn) (res : List DpGenIn) (r : DpGens)
    (h : genInitialise numbers base [g0, g1] [] res = .ok r) (h0 : 0 < g0.max ∧ 0 < g0.min ∧ g0.minDown = none ∧ g0.minUp = none)
    (h1 : 0 < g1.max ∧ 0 < g1.min) (N : Nat) (schedule : Nat → Rat) (hs : ∀ t, schedule t = 0 ∨ schedule t = 1) :
    ∃ o v, r.classes.flatten[1]? = some o ∧ o.bin = some 1 ∧ DomainsOk v ∧ (∀ t, v.bin 1 t = schedule t) ∧ TimesOk r v 0 N := by
  obtain ⟨_, hlen, _, _, _, h6, _⟩ := genInitialise_spec h
  obtain ⟨o0, ho0, p1, p2, p3, p4, p5, p6, p7, p8, p9⟩ := h6 0 g0 rfl
  obtain ⟨o, ho, q1, q2, q3, q4, q5, q6, q7, q8, q9⟩ := h6 1 g1 rfl
  have hc0 : Committed g0 = true := by simp [Committed, h0.1, h0.2.1]
  have hc1 : Committed g1 = true := by simp [Committed, h1]
  have e8 : o.vMDT = none ∨ o.vMDT = some 0 := by
    rw [q8]
    simp only [List.append_nil, List.length_cons, List.length_nil, List.take_succ_cons, List.take_zero, List.countP_cons,
      List.countP_nil, h0.2.2.1]
    simp
    cases hh : g1.minDown with
    | some z => right; simp [hc1]
    | none => left; simp
  have e9 : o.vMUT = none ∨ o.vMUT = some 0 := by
    rw [q9]
    simp only [List.append_nil, List.length_cons, List.length_nil, List.take_succ_cons, List.take_zero, List.countP_cons,
      List.countP_nil, h0.2.2.2]
    simp
    cases hh : g1.minUp with
    | some z => right; simp [hc1]
    | none => left; simp
  have f8 : o0.vMDT = none := by rw [p8, h0.2.2.1]; simp
  have f9 : o0.vMUT = none := by rw [p9, h0.2.2.2]; simp
  refine ⟨o, ⟨fun _ _ => 0, fun i t => if i = 1 then schedule t else 1, fun _ _ => 0, fun _ _ => 0⟩, ho, ?_, ?_, ?_, ?_⟩
  · rw [q7]; simp [hc0, hc1]
  · intro i t
    refine ⟨?_, by simp, by simp, by simp, by simp, by simp⟩
    by_cases e : i = 1
    · simp only [e, if_true]; exact hs t
    · simp [e]
  · intro t; simp
  · intro kind c hkc g hg t ht
    by_cases hk : kind = 0
    · subst hk
      -- the class has the two units
      obtain ⟨c0, hc00, hm0, hi0⟩ := conv_class h 0 (by simp) o0 ho0
      obtain ⟨c1, hc11, hm1, hi1⟩ := conv_class h 1 (by simp) o ho
      rw [hkc, Option.some.injEq] at hc00 hc11
      subst hc00
      have hc1e : c1 = c := hc11.symm
      subst hc1e
      have hlen2 : c1.length = 2 := by
        have hh := h
        unfold genInitialise at hh
        rw [except_bind_ok] at hh
        obtain ⟨⟨cls, st⟩, hc, hh⟩ := hh
        simp only [genClasses] at hc
        rw [except_bind_ok] at hc
        obtain ⟨⟨a0, s0⟩, g0', hc⟩ := hc
        rw [except_bind_ok] at hc
        obtain ⟨⟨w1, st1⟩, hc1, hc⟩ := hc
        simp only [Except.ok.injEq, Prod.mk.injEq] at hc
        obtain ⟨rfl, rfl⟩ := hc
        simp only [Except.ok.injEq] at hh
        subst hh
        have : a0 = c1 := by simpa using hkc
        rw [← this]
        exact (genClass_spec _ _ _ _ _ _ _ _ g0').1
      have hg' : g = o0 ∨ g = o := by
        obtain ⟨j, hj, rfl⟩ := List.mem_iff_getElem.1 hg
        rcases (by omega : j = 0 ∨ j = 1) with rfl | rfl
        · left; rw [List.getElem?_eq_getElem (by omega)] at hi0; exact Option.some.inj hi0
        · right; rw [List.getElem?_eq_getElem (by omega)] at hi1; exact Option.some.inj hi1
      unfold downRule1 downRule2 upRule1 upRule2
      rcases hg' with rfl | rfl
      · simp [f8, f9]
      · have hnn : ∀ l : List Nat, 0 ≤ (l.map (fun _ => (1 : Rat))).sum := by
          intro l; induction l with
          | nil => simp
          | cons a l ih => simp only [List.map_cons, List.sum_cons]; linarith
        rcases e8 with e8 | e8 <;> rcases e9 with e9 | e9 <;> simp [e8, e9]
    · unfold downRule1 downRule2 upRule1 upRule2
      simp [hk]

/-! ## C108: limits of generators -/

/-- the place of a unit in the list of all units, from its class -/
theorem class_flat {numbers : List Int} {base : Rat} {conv hydro res : List DpGenIn} {r : DpGens}
    (h : genInitialise numbers base conv hydro res = .ok r) (i : Nat) (g : DpGenIn) (hi : (conv ++ hydro)[i]? = some g) :
    ∃ kind c pos o, kind < 2 ∧ (kind = 0 ↔ i < conv.length) ∧ r.classes[kind]? = some c ∧ c[pos]? = some o ∧
      r.classes.flatten[i]? = some o ∧ (kind = 0 → pos = i) := by
  have hlt := (List.getElem?_eq_some_iff.1 hi).1
  rw [List.length_append] at hlt
  have hflat : ∃ o, r.classes.flatten[i]? = some o := by
    obtain ⟨_, hlen, _⟩ := genInitialise_spec h
    exact ⟨_, List.getElem?_eq_getElem (by rw [hlen]; simp; omega)⟩
  obtain ⟨o, ho⟩ := hflat
  have h' := h
  unfold genInitialise at h
  rw [except_bind_ok] at h
  obtain ⟨⟨cls, st⟩, hc, h⟩ := h
  simp only [genClasses] at hc
  rw [except_bind_ok] at hc
  obtain ⟨⟨o0, s0⟩, h0, hc⟩ := hc
  rw [except_bind_ok] at hc
  obtain ⟨⟨q1, st1⟩, hc1, hc⟩ := hc
  rw [except_bind_ok] at hc1
  obtain ⟨⟨o1, s1⟩, h1, hc1⟩ := hc1
  rw [except_bind_ok] at hc1
  obtain ⟨⟨q2, st2⟩, hc2, hc1⟩ := hc1
  simp only [Except.ok.injEq, Prod.mk.injEq] at hc1
  obtain ⟨rfl, rfl⟩ := hc1
  simp only [Except.ok.injEq, Prod.mk.injEq] at hc
  obtain ⟨rfl, rfl⟩ := hc
  simp only [Except.ok.injEq] at h
  subst h
  have l0 := (genClass_spec _ _ _ _ _ _ _ _ h0).1
  have l1 := (genClass_spec _ _ _ _ _ _ _ _ h1).1
  by_cases hic : i < conv.length
  · refine ⟨0, o0, i, o, by omega, by simp [hic], rfl, ?_, ho, fun _ => rfl⟩
    have ho : (o0 :: o1 :: q2).flatten[i]? = some o := ho
    rwa [List.flatten_cons, List.getElem?_append_left (by omega)] at ho
  · refine ⟨1, o1, i - conv.length, o, by omega, by simp [hic], rfl, ?_, ho, by simp⟩
    have ho : (o0 :: o1 :: q2).flatten[i]? = some o := ho
    rwa [List.flatten_cons, List.getElem?_append_right (by omega), List.flatten_cons, List.getElem?_append_left (by omega), l0] at ho

/-- the output of unit `i` of the case, in per unit -/
def unitOutput (v : UcVals) (con i t : Nat) : Rat := v.gen (con + i) t

/-- **C108.** With unit commitment and without cooling limits, a unit with positive minimum and maximum output either is
off and produces nothing, or is on and produces between its minimum and its maximum (conventional units and hydropower,
values of the case divided by the base power). -/
theorem C108_committed_partial (numbers : List Int) (base : Rat) (conv hydro res : List DpGenIn) (r : DpGens)
    (h : genInitialise numbers base conv hydro res = .ok r) (der : Nat → Nat → Rat) (v : UcVals) (hv : DomainsOk v)
    (con N : Nat) (hok : LimitsOk true false der r v con N) (i : Nat) (g : DpGenIn) (hi : (conv ++ hydro)[i]? = some g)
    (hmax : 0 < g.max) (hmin : 0 < g.min) (t : Nat) (ht : t < N) :
    unitOutput v con i t = 0 ∨ (g.min / base ≤ unitOutput v con i t ∧ unitOutput v con i t ≤ g.max / base) := by
  obtain ⟨kind, c, pos, o, hk, hk0, hc, hpos, ho, _⟩ := class_flat h i g hi
  have hlt := (List.getElem?_eq_some_iff.1 hi).1
  have hall : (conv ++ hydro ++ res)[i]? = some g := by rw [List.getElem?_append_left hlt, hi]
  obtain ⟨_, _, _, _, _, h6, _⟩ := genInitialise_spec h
  obtain ⟨o', ho', q1, q2, q3, q4, q5, q6, q7, q8, q9⟩ := h6 i g hall
  rw [ho, Option.some.injEq] at ho'
  subst ho'
  have hfalse : decide ((conv ++ hydro).length ≤ i) = false := by simp only [decide_eq_false_iff_not]; omega
  have hcom : Committed g = true := by simp [Committed, hmax, hmin]
  rw [hfalse] at q7
  simp only [hcom, and_self, if_true] at q7
  obtain ⟨m1, m2⟩ := hok kind c hc pos o hpos t ht
  simp only [Bool.false_eq_true, false_and, if_false, if_true] at m1 m2
  unfold genMaxUCRule at m1
  unfold genMinUCRule at m2
  rw [if_neg (by omega)] at m1 m2
  rw [q7] at m1 m2
  simp only [q2, q3, q4] at m1 m2
  unfold unitOutput
  obtain ⟨hb, hg, _⟩ := hv (con + List.countP Committed (List.take i (conv ++ hydro))) t
  have hg := (hv (con + i) t).2.1
  rcases hb with hb | hb <;> rw [hb] at m1 m2
  · left; linarith
  · right; constructor <;> linarith

/-- **C108.** The binary variable tells which: off means no output, on means an output within the limits. -/
theorem C108_switch_partial (numbers : List Int) (base : Rat) (conv hydro res : List DpGenIn) (r : DpGens)
    (h : genInitialise numbers base conv hydro res = .ok r) (der : Nat → Nat → Rat) (v : UcVals) (hv : DomainsOk v)
    (con N : Nat) (hok : LimitsOk true false der r v con N) (i : Nat) (g : DpGenIn) (hi : (conv ++ hydro)[i]? = some g)
    (o : DpGen) (ho : r.classes.flatten[i]? = some o) (b : Nat) (hb : o.bin = some b) (t : Nat) (ht : t < N) :
    (v.bin (con + b) t = 0 → unitOutput v con i t = 0) ∧
    (v.bin (con + b) t = 1 → g.min / base ≤ unitOutput v con i t ∧ unitOutput v con i t ≤ g.max / base) := by
  obtain ⟨kind, c, pos, o1, hk, hk0, hc, hpos, ho1, _⟩ := class_flat h i g hi
  rw [ho, Option.some.injEq] at ho1
  subst ho1
  have hlt := (List.getElem?_eq_some_iff.1 hi).1
  have hall : (conv ++ hydro ++ res)[i]? = some g := by rw [List.getElem?_append_left hlt, hi]
  obtain ⟨_, _, _, _, _, h6, _⟩ := genInitialise_spec h
  obtain ⟨o', ho', q1, q2, q3, q4, q5, q6, q7, q8, q9⟩ := h6 i g hall
  rw [ho, Option.some.injEq] at ho'
  subst ho'
  obtain ⟨m1, m2⟩ := hok kind c hc pos o hpos t ht
  simp only [Bool.false_eq_true, false_and, if_false, if_true] at m1 m2
  unfold genMaxUCRule at m1
  unfold genMinUCRule at m2
  rw [if_neg (by omega)] at m1 m2
  rw [hb] at m1 m2
  simp only [q2, q3, q4] at m1 m2
  unfold unitOutput
  have hg := (hv (con + i) t).2.1
  constructor <;> intro e <;> rw [e] at m1 m2
  · linarith
  · constructor <;> linarith

/-- **C108.** Without unit commitment a unit with positive maximum always produces between its limits. -/
theorem C108_uncommitted_partial (numbers : List Int) (base : Rat) (hbase : 0 < base) (conv hydro res : List DpGenIn) (r : DpGens)
    (h : genInitialise numbers base conv hydro res = .ok r) (der : Nat → Nat → Rat) (v : UcVals)
    (con N : Nat) (hok : LimitsOk false false der r v con N) (i : Nat) (g : DpGenIn) (hi : (conv ++ hydro)[i]? = some g)
    (hmax : 0 < g.max) (t : Nat) (ht : t < N) :
    g.min / base ≤ unitOutput v con i t ∧ unitOutput v con i t ≤ g.max / base := by
  obtain ⟨kind, c, pos, o, hk, hk0, hc, hpos, ho, _⟩ := class_flat h i g hi
  have hlt := (List.getElem?_eq_some_iff.1 hi).1
  have hall : (conv ++ hydro ++ res)[i]? = some g := by rw [List.getElem?_append_left hlt, hi]
  obtain ⟨_, _, _, _, _, h6, _⟩ := genInitialise_spec h
  obtain ⟨o', ho', q1, q2, q3, q4, q5, q6, q7, q8, q9⟩ := h6 i g hall
  rw [ho, Option.some.injEq] at ho'
  subst ho'
  obtain ⟨m1, m2⟩ := hok kind c hc pos o hpos t ht
  simp only [Bool.false_eq_true, false_and, if_false] at m1 m2
  unfold genMaxRule at m1
  unfold genMinRule at m2
  rw [if_neg (by omega)] at m1 m2
  rw [q3, q4, q2, if_pos (by positivity)] at m2
  rw [q3, q2] at m1
  exact ⟨m2, m1⟩

/-- **C108.** With water cooling and without unit commitment, a conventional unit produces at most its derated maximum. -/
theorem C108_cooled_partial (numbers : List Int) (base : Rat) (conv hydro res : List DpGenIn) (r : DpGens)
    (h : genInitialise numbers base conv hydro res = .ok r) (der : Nat → Nat → Rat) (v : UcVals)
    (con N : Nat) (hok : LimitsOk false true der r v con N) (i : Nat) (g : DpGenIn) (hi : conv[i]? = some g)
    (t : Nat) (ht : t < N) : unitOutput v con i t ≤ g.max / base * der i t := by
  have hlt := (List.getElem?_eq_some_iff.1 hi).1
  have hi' : (conv ++ hydro)[i]? = some g := by rw [List.getElem?_append_left hlt, hi]
  obtain ⟨kind, c, pos, o, hk, hk0, hc, hpos, ho, hp⟩ := class_flat h i g hi'
  have hall : (conv ++ hydro ++ res)[i]? = some g := by rw [List.append_assoc, List.getElem?_append_left hlt, hi]
  obtain ⟨_, _, _, _, _, h6, _⟩ := genInitialise_spec h
  obtain ⟨o', ho', q1, q2, q3, q4, q5, q6, q7, q8, q9⟩ := h6 i g hall
  rw [ho, Option.some.injEq] at ho'
  subst ho'
  have hkz := hk0.2 hlt
  obtain ⟨m1, m2⟩ := hok kind c hc pos o hpos t ht
  rw [if_pos ⟨rfl, hkz⟩] at m1
  unfold genMaxWCRule at m1
  simp only [Bool.false_eq_true, if_false] at m1
  rw [q2, q3, hp hkz] at m1
  exact m1

/-- **C108**, violated.  With water cooling and unit commitment, a conventional unit without minimum output is not derated:
full output is allowed by its limits whatever the derating. -/
theorem C108_cooled_uc_violated (numbers : List Int) (base : Rat) (hb : 0 < base) (g : DpGenIn) (r : DpGens)
    (h : genInitialise numbers base [g] [] [] = .ok r) (hmax : 0 < g.max) (hmin : g.min ≤ 0) (der : Nat → Nat → Rat)
    (N : Nat) :
    ∃ v, DomainsOk v ∧ LimitsOk true true der r v 0 N ∧ ∀ t, unitOutput v 0 0 t = g.max / base := by
  obtain ⟨_, hlen, _, _, _, h6, _⟩ := genInitialise_spec h
  obtain ⟨o, ho, q1, q2, q3, q4, q5, q6, q7, q8, q9⟩ := h6 0 g rfl
  have hcom : ¬ Committed g = true := by simp [Committed]; intro; linarith
  rw [if_neg (by tauto)] at q7
  have hge : 0 ≤ g.max / base := by positivity
  refine ⟨⟨fun _ _ => g.max / base, fun _ _ => 0, fun _ _ => 0, fun _ _ => 0⟩, ?_, ?_, fun t => rfl⟩
  · intro i t; refine ⟨by simp, hge, by simp, by simp, by simp, by simp⟩
  · intro kind c hc pos o1 hpos t ht
    have : o1 = o := by
      have hmem : o1 ∈ r.classes.flatten := List.mem_flatten.2 ⟨c, List.mem_of_getElem? hc, List.mem_of_getElem? hpos⟩
      obtain ⟨j, hj, e⟩ := List.mem_iff_getElem.1 hmem
      have hj0 : j = 0 := by rw [hlen] at hj; simpa using hj
      subst hj0
      rw [List.getElem?_eq_getElem hj, e] at ho
      exact Option.some.inj ho
    subst this
    unfold genMaxWCRule genMaxUCRule genMinUCRule
    simp [q7, q3]

/-- **C108**, violated.  The minimum output is not derated: with a derating below the ratio of minimum and maximum, a unit
that must run cannot run, and without unit commitment no dispatch meets the limits. -/
theorem C108_cooled_min_violated (numbers : List Int) (base : Rat) (hb : 0 < base) (conv hydro res : List DpGenIn) (r : DpGens)
    (h : genInitialise numbers base conv hydro res = .ok r) (i : Nat) (g : DpGenIn) (hi : conv[i]? = some g) (hmax : 0 < g.max)
    (der : Nat → Nat → Rat) (t N con : Nat) (ht : t < N) (hder : g.max * der i t < g.min) (v : UcVals) :
    ¬ LimitsOk false true der r v con N := by
  intro hok
  have hub := C108_cooled_partial numbers base conv hydro res r h der v con N hok i g hi t ht
  have hlt := (List.getElem?_eq_some_iff.1 hi).1
  have hi' : (conv ++ hydro)[i]? = some g := by rw [List.getElem?_append_left hlt, hi]
  obtain ⟨kind, c, pos, o, hk, hk0, hc, hpos, ho, hp⟩ := class_flat h i g hi'
  have hall : (conv ++ hydro ++ res)[i]? = some g := by rw [List.append_assoc, List.getElem?_append_left hlt, hi]
  obtain ⟨_, _, _, _, _, h6, _⟩ := genInitialise_spec h
  obtain ⟨o', ho', q1, q2, q3, q4, q5, q6, q7, q8, q9⟩ := h6 i g hall
  rw [ho, Option.some.injEq] at ho'
  subst ho'
  obtain ⟨m1, m2⟩ := hok kind c hc pos o hpos t ht
  simp only [Bool.false_eq_true, if_false] at m2
  unfold genMinRule at m2
  rw [if_neg (by omega), q3, q4, q2, if_pos (by positivity)] at m2
  have hm : g.min / base ≤ g.max / base * der i t := le_trans m2 hub
  have : g.min / base ≤ (g.max * der i t) / base := by rw [mul_div_right_comm]; exact hm
  have := (div_le_div_iff_of_pos_right hb).1 this
  linarith

/-! ## C109: ramps -/

/-- the previous period, cyclic -/
def before (N t : Nat) : Nat := (t + N - 1) % N

theorem llTime_before (N t : Nat) (ht : t < N) : llTime N t = before N t := by
  unfold llTime before
  by_cases h : t = 0
  · subst h
    rw [if_pos rfl, Nat.zero_add, Nat.mod_eq_of_lt (by omega)]
  · rw [if_neg h, show t + N - 1 = (t - 1) + N by omega, Nat.add_mod_right, Nat.mod_eq_of_lt (by omega)]

/-- **C109.** A unit with a ramp setting strictly between 0 and 1 changes its output between consecutive periods (cyclic)
by at most that share of its capacity, and nothing else is imposed; without a setting, or outside that range, there is no
limit. -/
theorem C109_ramps_partial (setting : Option Rat) (max : Rat) (hmax : 0 ≤ max) (out : Nat → Rat) (N : Nat)
    (hout : ∀ t, 0 ≤ out t) (hcap : ∀ t, out t ≤ max) :
    (∀ t < N, rampRule (rampLimit setting max) max out N t) ↔
      ∀ r, setting = some r → 0 < r → r < 1 → ∀ t < N, |out t - out (before N t)| ≤ r * max := by
  constructor
  · rintro h r rfl hr0 hr1 t ht
    have := h t ht
    unfold rampLimit rampRule at this
    simp only [if_neg (show ¬ (r ≤ 0 ∨ r ≥ 1) by rintro (h | h) <;> linarith)] at this
    rw [← llTime_before N t ht]
    by_cases hm : max * r < max
    · rw [if_pos hm] at this
      rw [abs_le]
      constructor <;> linarith [this.1, this.2]
    · have : max = 0 := by
        by_contra hne
        have hp : 0 < max := lt_of_le_of_ne hmax (Ne.symm hne)
        exact hm (by nlinarith)
      have h1 := hcap t
      have h2 := hcap (llTime N t)
      have h3 := hout t
      have h4 := hout (llTime N t)
      rw [this] at h1 h2 ⊢
      rw [abs_le]; constructor <;> linarith
  · intro h t ht
    unfold rampLimit rampRule
    split
    · rw [if_neg (by linarith)]; trivial
    · rename_i r
      by_cases hr : r ≤ 0 ∨ r ≥ 1
      · simp only [if_pos hr]
        rw [if_neg (by linarith)]; trivial
      · simp only [if_neg hr]
        push Not at hr
        have := h r rfl hr.1 hr.2 t ht
        rw [← llTime_before N t ht, abs_le] at this
        split
        · constructor <;> linarith
        · trivial

/-- **C109.** One setting applies to every conventional unit, a full list applies unit by unit, and without settings the
ramps of the case are used. -/
theorem C109_settings_partial (conv : List Rat) (mpcRamp : Option (List Rat)) (n : Nat) :
    (∀ r, conv = [r] → rampSettings conv mpcRamp n = .ok (List.replicate n (some r))) ∧
    (conv.length = n → 2 ≤ n → rampSettings conv mpcRamp n = .ok (conv.map some)) ∧
    (conv = [] → mpcRamp = none → rampSettings conv mpcRamp n = .ok (List.replicate n none)) ∧
    (∀ l, conv = [] → mpcRamp = some l → l.length = n → rampSettings conv mpcRamp n = .ok (l.map some)) := by
  unfold rampSettings
  refine ⟨?_, ?_, ?_, ?_⟩
  · rintro r rfl
    rw [mapM_all (rampSetting [r] mpcRamp) (fun _ => some r) _ (fun x _ => rfl)]
    simp
  · intro hl hn
    have hg : ∀ x ∈ List.range n, rampSetting conv mpcRamp x = .ok (conv[x]?) := by
      intro x hx
      have hx := List.mem_range.1 hx
      unfold rampSetting
      split
      · simp at hl; omega
      · simp at hl; omega
      · rw [if_pos (by omega)]
        have he : conv[x]? = some conv[x] := List.getElem?_eq_getElem (by omega)
        have := (pyGet_nat_iff conv x conv[x]).2 he
        rw [this, he]; rfl
    rw [mapM_all _ (fun x => conv[x]?) _ hg]
    congr 1
    apply List.ext_getElem
    · simp [hl]
    · intro i h1 h2
      have : i < conv.length := by simpa using h2
      simp [this]
  · rintro rfl rfl
    rw [mapM_all (rampSetting [] none) (fun _ => none) _ (fun x _ => rfl)]
    simp
  · rintro l rfl rfl hl
    have hg : ∀ x ∈ List.range n, rampSetting [] (some l) x = .ok (l[x]?) := by
      intro x hx
      have hx := List.mem_range.1 hx
      unfold rampSetting
      have he : l[x]? = some l[x] := List.getElem?_eq_getElem (by omega)
      have := (pyGet_nat_iff l x l[x]).2 he
      simp only [this, he]; rfl
    rw [mapM_all _ (fun x => l[x]?) _ hg]
    congr 1
    apply List.ext_getElem
    · simp [hl]
    · intro i h1 h2
      have : i < l.length := by simpa using h2
      simp [this]

/-- **C109**, violated.  A list shorter than the number of units is meant to leave the others without limit, but the
configuration raises an `IndexError` at the first unit beyond the list. -/
theorem C109_short_list_violated (conv : List Rat) (mpcRamp : Option (List Rat)) (n : Nat) (h2 : 2 ≤ conv.length)
    (hn : conv.length < n) : ∀ l, rampSettings conv mpcRamp n ≠ .ok l := by
  intro l h
  unfold rampSettings at h
  obtain ⟨b, _, hb⟩ := (mapM_ok_forall _ _ _ h).2 conv.length (List.mem_range.2 hn)
  unfold rampSetting at hb
  split at hb
  · simp at h2
  · simp at h2
  · rw [if_pos le_rfl, pyGet_beyond _ _ le_rfl] at hb
    cases hb

/-! ## C110: cooling -/

/-- a list given by the user, completed with zeros up to the number of conventional units -/
def padded (conv : Nat) (l : List Int) (x : Nat) : Option Int := if x < conv then some ((l[x]?).getD 0) else none

theorem zerosWith_get {n : Nat} {l r : List Int} (h : zerosWith n l = .ok r) : r.length = n ∧ ∀ x, r[x]? = padded n l x := by
  unfold zerosWith at h
  split at h
  · cases h
  · rename_i hl
    simp only [Except.ok.injEq] at h
    subst h
    refine ⟨by simp; omega, fun x => ?_⟩
    unfold padded
    by_cases hx : x < n
    · rw [if_pos hx]
      by_cases hxl : x < l.length
      · rw [List.getElem?_append_left hxl, List.getElem?_eq_getElem hxl]; rfl
      · rw [List.getElem?_append_right (by omega), List.getElem?_replicate_of_lt (by omega), List.getElem?_eq_none (by omega)]; rfl
    · rw [if_neg hx, List.getElem?_eq_none (by simp; omega)]

/-- **C110.** Without types, every conventional unit is derated with the temperature profile the user linked to it (the
first if none is given) and the first type of cooling. -/
theorem C110_one_type_partial (conv : Nat) (gen2Temp : List Int) (hlen : gen2Temp.length ≤ conv) (noProfiles x : Nat)
    (p : Nat) (hp : padded conv gen2Temp x = some (p : Int)) (hpn : p < noProfiles) :
    derating conv gen2Temp [] noProfiles x = .ok ((p : Int), 0) := by
  unfold derating
  have hz : zerosWith conv gen2Temp = .ok (gen2Temp ++ List.replicate (conv - gen2Temp.length) 0) := by
    unfold zerosWith; rw [if_neg (by omega)]
  have hget := (zerosWith_get hz).2 x
  rw [hp] at hget
  rw [hz]
  show (do
    let d ← pyGet (gen2Temp ++ List.replicate (conv - gen2Temp.length) 0) (x : Int)
    let p ← pyGet ((List.range noProfiles).map (fun (i : Nat) => (i : Int))) d
    Except.ok (p, (0 : Int))) = _
  rw [(pyGet_nat_iff _ x (p : Int)).2 hget]
  show (do
    let p ← pyGet ((List.range noProfiles).map (fun (i : Nat) => (i : Int))) (p : Int)
    Except.ok (p, (0 : Int))) = _
  rw [(pyGet_nat_iff _ p (p : Int)).2 (by rw [List.getElem?_map, List.getElem?_range hpn]; rfl)]
  rfl

/-- no earlier unit has the same type: a new simulation is appended -/
theorem derInner_new (ax : List Int) (x1 : Nat) (hne : ∀ x2 < x1, ax[x1]? ≠ ax[x2]?) (s : DerState) : ∀ k ≤ x1,
    derInner ax x1 k s = ⟨s.gen2der.set x1 (s.types.length : Nat), s.types ++ [(ax[x1]?).getD 0], s.profs ++ [(s.gen2der[x1]?).getD 0]⟩ := by
  intro k
  induction k with
  | zero => intro _; rfl
  | succ k ih =>
    intro hk
    unfold derInner
    simp only
    rw [if_neg (fun hh => hne (x1 - (k + 1)) (by omega) hh.1)]
    exact ih (by omega)

theorem derLoop_distinct (ax g2d : List Int) (hlen : ax.length = g2d.length)
    (hdist : ∀ i j, i < j → j < ax.length → ax[j]? ≠ ax[i]?) : ∀ n ≤ ax.length,
    let s := derLoop ax n ⟨g2d, [], []⟩
    s.gen2der.length = g2d.length ∧ (∀ x < n, s.gen2der[x]? = some (x : Int)) ∧ (∀ x, n ≤ x → s.gen2der[x]? = g2d[x]?) ∧
    s.types = ax.take n ∧ s.profs = g2d.take n := by
  intro n
  induction n with
  | zero => intro _; simp [derLoop]
  | succ n ih =>
    intro hn
    obtain ⟨i1, i2, i3, i4, i5⟩ := ih (by omega)
    have hstep : derLoop ax (n + 1) ⟨g2d, [], []⟩ = derInner ax n n (derLoop ax n ⟨g2d, [], []⟩) := by
      unfold derLoop
      rw [List.range_succ, List.foldl_append]; rfl
    rw [hstep, derInner_new ax n (fun x2 h2 => hdist x2 n h2 (by omega)) _ n le_rfl]
    have e1 : ax[n]? = some ax[n] := List.getElem?_eq_getElem (by omega)
    have e2 : g2d[n]? = some g2d[n] := List.getElem?_eq_getElem (by omega)
    refine ⟨by simp [i1], ?_, ?_, ?_, ?_⟩
    · intro x hx
      simp only
      by_cases hxn : x = n
      · subst hxn
        rw [List.getElem?_set_self (by omega), i4, List.length_take, min_eq_left (by omega)]
      · rw [List.getElem?_set_ne (by omega)]
        exact i2 x (by omega)
    · intro x hx
      simp only
      rw [List.getElem?_set_ne (by omega)]
      exact i3 x (by omega)
    · simp only
      rw [i4, e1, List.take_add_one, e1]; rfl
    · simp only
      rw [i5, i3 n le_rfl, e2, List.take_add_one, e2]; rfl

/-- **C110**, partial.  If the conventional units have pairwise different types of cooling, each is derated with the
temperature profile and the type the user linked to it. -/
theorem C110_distinct_types_partial (conv : Nat) (gen2Temp genType : List Int) (hlen : gen2Temp.length ≤ conv)
    (hlen2 : genType.length ≤ conv) (hne : genType ≠ []) (hdist : ∀ i j, i < j → j < conv → padded conv genType j ≠ padded conv genType i)
    (noProfiles x : Nat) (hx : x < conv) (p : Nat) (hp : padded conv gen2Temp x = some (p : Int)) (hpn : p < noProfiles)
    (ty : Int) (hty : padded conv genType x = some ty) :
    derating conv gen2Temp genType noProfiles x = .ok ((p : Int), ty) := by
  obtain ⟨g, hz⟩ : ∃ g, zerosWith conv gen2Temp = .ok g := ⟨_, by unfold zerosWith; rw [if_neg (by omega)]⟩
  obtain ⟨a, hz2⟩ : ∃ a, zerosWith conv genType = .ok a := ⟨_, by unfold zerosWith; rw [if_neg (by omega)]⟩
  obtain ⟨g1, g2⟩ := zerosWith_get hz
  obtain ⟨a1, a2⟩ := zerosWith_get hz2
  obtain ⟨d1, d2, d3, d4, d5⟩ := derLoop_distinct a g (by omega) (fun i j hij hj => by rw [a2, a2]; exact hdist i j hij (by omega)) conv (by omega)
  unfold derating
  rw [hz]
  cases genType with
  | nil => exact absurd rfl hne
  | cons t0 ts =>
    show (do
      let ax ← zerosWith conv (t0 :: ts)
      let s := derLoop ax conv ⟨g, [], []⟩
      let d ← pyGet s.gen2der (x : Int)
      let t ← pyGet s.types d
      let p ← pyGet s.profs d
      let _ ← pyGet (List.range noProfiles) p
      Except.ok (p, t)) = _
    rw [hz2]
    show (do
      let d ← pyGet (derLoop a conv ⟨g, [], []⟩).gen2der (x : Int)
      let t ← pyGet (derLoop a conv ⟨g, [], []⟩).types d
      let p ← pyGet (derLoop a conv ⟨g, [], []⟩).profs d
      let _ ← pyGet (List.range noProfiles) p
      Except.ok (p, t)) = _
    rw [(pyGet_nat_iff _ x (x : Int)).2 (d2 x hx)]
    show (do
      let t ← pyGet (derLoop a conv ⟨g, [], []⟩).types (x : Int)
      let p ← pyGet (derLoop a conv ⟨g, [], []⟩).profs (x : Int)
      let _ ← pyGet (List.range noProfiles) p
      Except.ok (p, t)) = _
    rw [d4, d5, List.take_of_length_le (by omega), List.take_of_length_le (by omega),
      (pyGet_nat_iff _ x ty).2 (by rw [a2, hty]), ]
    show (do
      let p ← pyGet g (x : Int)
      let _ ← pyGet (List.range noProfiles) p
      Except.ok (p, ty)) = _
    rw [(pyGet_nat_iff _ x (p : Int)).2 (by rw [g2, hp])]
    show (do
      let _ ← pyGet (List.range noProfiles) (p : Int)
      Except.ok ((p : Int), ty)) = _
    rw [(pyGet_nat_iff _ p p).2 (List.getElem?_range hpn)]
    rfl

/-- **C110**, violated.  Two units of the same type, the first linked to temperature profile `p ≠ 0` and the second to
profile 0: the second is derated with the profile of the first. -/
theorem C110_same_type_violated (p noProfiles : Nat) (hp : p < noProfiles) (ty : Int) :
    derating 2 [(p : Int), 0] [ty, ty] noProfiles 1 = .ok ((p : Int), ty) := by
  unfold derating zerosWith
  simp [derLoop, List.range_succ, derInner, derSet, bind, Except.bind]
  have e1 : pyGet [(0 : Int), 0] 1 = .ok 0 := by decide
  have e2 : pyGet [ty] 0 = .ok ty := (pyGet_nat_iff [ty] 0 ty).2 rfl
  have e3 : pyGet [(p : Int)] 0 = .ok (p : Int) := (pyGet_nat_iff [(p : Int)] 0 p).2 rfl
  have e4 : pyGet (List.range noProfiles) (p : Int) = .ok p := (pyGet_nat_iff _ p p).2 (List.getElem?_range hp)
  simp [e1, e2, e3, e4]

/-! ## C111: baseload -/

/-- **C111**, partial.  If the weights of all periods are equal and some hydropower unit is asked for baseload, a unit with
a baseload share produces in every period at least that share of its average output. -/
theorem C111_baseload_partial (hydroBaseload weights : List Rat) (hb : 0 < hydroBaseload.sum) (N : Nat) (hN : weights.length = N)
    (w : Rat) (hw : 0 < w) (heq : ∀ x ∈ weights, x = w) (share : Rat) (hs : 0 < share) (out : Nat → Rat)
    (hok : BaseloadOk hydroBaseload share weights out N) (t : Nat) (ht : t < N) :
    share * (((List.range N).map out).sum / N) ≤ out t := by
  unfold BaseloadOk at hok
  rw [if_pos hb] at hok
  have := hok t ht
  unfold baseloadRule at this
  beta_reduce at this
  rw [if_pos hs] at this
  have hwl : weights = List.replicate N w := by
    rw [← hN]; exact List.eq_replicate_of_mem heq
  have hsum : weights.sum = N * w := by rw [hwl, List.sum_replicate, nsmul_eq_mul]
  have hget : (weights[t]?).getD 0 = w := by rw [hwl, List.getElem?_replicate_of_lt ht]; rfl
  rw [hget, hsum] at this
  have hNp : (0 : Rat) < N := by exact_mod_cast (by omega : 0 < N)
  have e : w / ((N : Rat) * w) = 1 / N := by field_simp
  rw [e] at this
  calc share * (((List.range N).map out).sum / N) = ((List.range N).map out).sum * share * (1 / N) := by ring
    _ ≤ out t := this

/-- **C111**, violated.  Without baseload from hydropower, the baseload of conventional units imposes nothing. -/
theorem C111_conventional_violated (hydroBaseload weights : List Rat) (hb : hydroBaseload.sum ≤ 0) (share : Rat) (out : Nat → Rat)
    (N : Nat) : BaseloadOk hydroBaseload share weights out N := by
  unfold BaseloadOk
  rw [if_neg (by linarith)]
  trivial

/-- **C111**, violated.  With periods of different weights, a unit that produces the same in all periods (pure baseload)
breaks its own baseload constraint in every period whose weight exceeds the average weight divided by the share. -/
theorem C111_weights_violated (hydroBaseload weights : List Rat) (hb : 0 < hydroBaseload.sum) (N : Nat) (hw : 0 < weights.sum)
    (share : Rat) (hs : 0 < share) (P : Rat) (hP : 0 < P) (t : Nat) (ht : t < N) (wt : Rat) (hwt : weights[t]? = some wt)
    (hbig : weights.sum / N < share * wt) : ¬ BaseloadOk hydroBaseload share weights (fun _ => P) N := by
  intro hok
  unfold BaseloadOk at hok
  rw [if_pos hb] at hok
  have := hok t ht
  unfold baseloadRule at this
  rw [if_pos hs] at this
  have hwt' : (weights[t]?).getD 0 = wt := by rw [hwt]; rfl
  beta_reduce at this
  simp only [hwt'] at this
  have hNp : (0 : Rat) < N := by exact_mod_cast (by omega : 0 < N)
  have hsum : ((List.range N).map (fun _ => P)).sum = N * P := by simp
  rw [hsum] at this
  have h1 : (N : Rat) * P * share * (wt / weights.sum) * weights.sum = N * P * share * wt := by field_simp
  have h2 := mul_le_mul_of_nonneg_right this hw.le
  rw [h1] at h2
  rw [div_lt_iff₀ hNp] at hbig
  have : P * weights.sum < P * (share * wt * N) := mul_lt_mul_of_pos_left hbig hP
  nlinarith

/-! ## C112: RES limits -/

/-- **C112.** The output of a RES unit is limited in every period to its capacity times the value of the profile linked to
it in the scenario (profiles of the length of the horizon, numbered from 1). -/
theorem C112_linked_partial (links : List Int) (profiles : List (List Rat)) (maxs : List Rat) (T noRES xg t xh l : Nat)
    (hprof : ∀ p ∈ profiles, p.length = T) (ht : t < T) (hl : links[xg + xh * noRES]? = some ((l : Int) + 1))
    (p : List Rat) (hp : profiles[l]? = some p) (f : Rat) (hf : p[t]? = some f) (m : Rat) (hm : maxs[xg]? = some m) :
    resLimit links profiles.flatten maxs T noRES xg t xh = .ok (f * m) := by
  unfold resLimit
  rw [(pyGet_nat_iff _ _ _).2 hl]
  show (do
    let p ← pyGet profiles.flatten ((T : Int) * (((l : Int) + 1) - 1) + t)
    let m ← pyGet maxs (xg : Int)
    Except.ok (p * m)) = _
  have e : (T : Int) * (((l : Int) + 1) - 1) + t = ((l * T + t : Nat) : Int) := by push_cast; ring
  rw [e, (pyGet_nat_iff _ (l * T + t) f).2 (by rw [flatten_get T profiles hprof l t ht, hp]; exact hf)]
  show (do
    let m ← pyGet maxs (xg : Int)
    Except.ok (f * m)) = _
  rw [(pyGet_nat_iff _ xg m).2 hm]
  rfl

/-- **C112.** By default scenario `s` uses profile `s`, and with a single profile all scenarios use it. -/
theorem C112_default_partial (noProf : Int) (noRES number xg xh : Nat) (hg : xg < noRES) (hh : xh < number) :
    (defaultLinksRes noProf noRES number)[xg + xh * noRES]? = some (if noProf = 1 then 1 else (xh : Int) + 1) := by
  unfold defaultLinksRes
  split
  · have hlt : xg + xh * noRES < number * noRES := by
      have : (xh + 1) * noRES ≤ number * noRES := Nat.mul_le_mul_right _ (by omega)
      rw [Nat.succ_mul] at this; omega
    rw [List.getElem?_map, List.getElem?_range hlt]; rfl
  · rw [Nat.add_comm xg, defaultLinks_get noRES number xg xh hg hh]

/-- **C112**, violated.  A link numbered 0 does not raise: it uses the last profile. -/
theorem C112_link_zero_violated (links : List Int) (profiles : List (List Rat)) (maxs : List Rat) (T noRES xg t xh : Nat)
    (hprof : ∀ p ∈ profiles, p.length = T) (ht : t < T) (hl : links[xg + xh * noRES]? = some 0)
    (p : List Rat) (hp : profiles.getLast? = some p) (f : Rat) (hf : p[t]? = some f) (m : Rat) (hm : maxs[xg]? = some m) :
    resLimit links profiles.flatten maxs T noRES xg t xh = .ok (f * m) := by
  have hne : 0 < profiles.length := by
    cases profiles with
    | nil => simp at hp
    | cons a l => simp
  have hlen := flatten_len T profiles hprof
  have hT : T ≤ profiles.length * T := Nat.le_mul_of_pos_left T hne
  unfold resLimit
  rw [(pyGet_nat_iff _ _ _).2 hl]
  show (do
    let p ← pyGet profiles.flatten ((T : Int) * ((0 : Int) - 1) + t)
    let m ← pyGet maxs (xg : Int)
    Except.ok (p * m)) = _
  have hget : pyGet profiles.flatten ((T : Int) * ((0 : Int) - 1) + t) = .ok f := by
    have hneg : (T : Int) * ((0 : Int) - 1) + t < 0 := by
      have : (T : Int) * ((0 : Int) - 1) = -T := by ring
      omega
    unfold pyGet
    have e : (T : Int) * ((0 : Int) - 1) + t + (profiles.flatten.length : Int) = (((profiles.length - 1) * T + t : Nat) : Int) := by
      rw [hlen, Nat.sub_mul]
      push_cast [Nat.cast_sub hT]
      have hT' : 1 * T ≤ profiles.length * T := by omega
      rw [Nat.cast_sub hT']
      push_cast; ring
    simp only [if_pos hneg]
    rw [if_neg (by rw [e]; omega), e, Int.toNat_natCast, flatten_get T profiles hprof _ t ht]
    rw [List.getLast?_eq_getElem?] at hp
    rw [hp]
    simp only [Option.bind_some, hf]
  rw [hget]
  show (do
    let m ← pyGet maxs (xg : Int)
    Except.ok (f * m)) = _
  rw [(pyGet_nat_iff _ xg m).2 hm]
  rfl

/-! ## witnesses -/

/-- two conventional units with minimum down and up times, one hydropower unit, one RES unit -/
def exUcGens : Option DpGens :=
  match genInitialise [1, 2] 100 [⟨1, 100, 50, some 2, some 2⟩, ⟨2, 200, 50, some 2, some 3⟩] [⟨2, 50, 10, none, none⟩] [⟨1, 30, 0, none, none⟩] with
  | .ok r => some r
  | .error _ => none

def exUcUnit (i : Nat) : Option DpGen := match exUcGens with
  | some r => r.classes.flatten[i]?
  | none => none

/-- the units are configured, the first two have binary variables 0 and 1 -/
example : ((exUcUnit 0).bind (·.bin), (exUcUnit 1).bind (·.bin), (exUcUnit 1).bind (·.vMDT), (exUcUnit 2).bind (·.bin), (exUcUnit 3).bind (·.bin)) =
    (some 0, some 1, some 1, some 2, none) := by decide +kernel

/-- a schedule of six periods: unit 1 is off in periods 2 and 3, all other units are always on -/
def exUcVals : UcVals :=
  ⟨fun i t => if i = 1 ∧ (t = 2 ∨ t = 3) then 0 else 1 / 2, fun i t => if i = 1 ∧ (t = 2 ∨ t = 3) then 0 else 1,
    fun i t => if i = 1 ∧ t = 2 then 1 else 0, fun i t => if i = 1 ∧ t = 4 then 1 else 0⟩

theorem exUcVals_ok : DomainsOk exUcVals := by
  intro i t
  unfold exUcVals
  refine ⟨?_, ?_, ?_, ?_, ?_, ?_⟩ <;> simp only <;> split <;> norm_num

instance (kind : Nat) (g : DpGen) (v : UcVals) (con N t : Nat) : Decidable (downRule1 kind g v con N t) := by
  unfold downRule1; split
  · infer_instance
  · split <;> infer_instance

instance (kind : Nat) (g : DpGen) (v : UcVals) (con N t : Nat) : Decidable (downRule2 kind g v con N t) := by
  unfold downRule2; split
  · infer_instance
  · split <;> infer_instance

instance (kind : Nat) (g : DpGen) (v : UcVals) (con N t : Nat) : Decidable (upRule1 kind g v con N t) := by
  unfold upRule1; split
  · infer_instance
  · split <;> infer_instance

instance (kind : Nat) (g : DpGen) (v : UcVals) (con N t : Nat) : Decidable (upRule2 kind g v con N t) := by
  unfold upRule2; split
  · infer_instance
  · split <;> infer_instance

instance (kind : Nat) (g : DpGen) (v : UcVals) (con t : Nat) : Decidable (genMaxUCRule kind g v con t) := by
  unfold genMaxUCRule; split
  · infer_instance
  · split <;> infer_instance

instance (kind : Nat) (g : DpGen) (v : UcVals) (con t : Nat) : Decidable (genMinUCRule kind g v con t) := by
  unfold genMinUCRule; split
  · infer_instance
  · split <;> infer_instance

/-- all rules of all units and six periods, as a computation -/
def exUcCheck (r : DpGens) : Bool :=
  (List.range 3).all (fun kind => ((r.classes[kind]?).getD []).all (fun g => (List.range 6).all (fun t =>
    decide (downRule1 kind g exUcVals 0 6 t) && decide (downRule2 kind g exUcVals 0 6 t) && decide (upRule1 kind g exUcVals 0 6 t) &&
    decide (upRule2 kind g exUcVals 0 6 t) && decide (genMaxUCRule kind g exUcVals 0 t) && decide (genMinUCRule kind g exUcVals 0 t))))

theorem exUc_checked : (match exUcGens with | some r => exUcCheck r && decide (r.classes.length = 3) | none => false) = true := by
  decide +kernel

theorem exUc_all (r : DpGens) (hr : exUcGens = some r) (kind : Nat) (c : List DpGen) (hc : r.classes[kind]? = some c) (g : DpGen)
    (hg : g ∈ c) (t : Nat) (ht : t < 6) : downRule1 kind g exUcVals 0 6 t ∧ downRule2 kind g exUcVals 0 6 t ∧
      upRule1 kind g exUcVals 0 6 t ∧ upRule2 kind g exUcVals 0 6 t ∧ genMaxUCRule kind g exUcVals 0 t ∧ genMinUCRule kind g exUcVals 0 t := by
  have h := exUc_checked
  rw [hr] at h
  simp only [Bool.and_eq_true, decide_eq_true_eq] at h
  have hk : kind < 3 := by rw [← h.2]; exact (List.getElem?_eq_some_iff.1 hc).1
  have h1 := List.all_eq_true.1 h.1 kind (List.mem_range.2 hk)
  rw [hc] at h1
  have h2 := List.all_eq_true.1 (List.all_eq_true.1 h1 g hg) t (List.mem_range.2 ht)
  simp only [Bool.and_eq_true, decide_eq_true_eq] at h2
  tauto

/-- the schedule meets the rules on minimum times and the limits, though unit 1 is switched off and on again -/
theorem exUc_times : ∃ r, exUcGens = some r ∧ TimesOk r exUcVals 0 6 ∧ LimitsOk true false (fun _ _ => 1) r exUcVals 0 6 := by
  obtain ⟨r, hr⟩ : ∃ r, exUcGens = some r := by
    have h := exUc_checked
    cases hr : exUcGens with
    | none => rw [hr] at h; simp at h
    | some r => exact ⟨r, rfl⟩
  refine ⟨r, hr, ?_, ?_⟩
  · intro kind c hc g hg t ht
    have := exUc_all r hr kind c hc g hg t ht
    tauto
  · intro kind c hc pos g hg t ht
    have := exUc_all r hr kind c hc g (List.mem_of_getElem? hg) t ht
    simp only [Bool.false_eq_true, false_and, if_false, if_true]
    tauto

/-- C107 and C108 apply to it: unit 1 is on in period 1, off in period 2 and hence in period 3 -/
example : exUcVals.bin 1 1 = 1 ∧ exUcVals.bin 1 2 = 0 ∧ exUcVals.bin 1 3 = 0 ∧ exUcVals.bin 1 4 = 1 := by
  unfold exUcVals; norm_num

/-- the hypotheses of the violations of C107 and C108 are met -/
example : (match genInitialise [1] 100 [⟨1, 100, 50, none, none⟩, ⟨1, 80, 40, some 3, some 3⟩] [] [] with
    | .ok r => decide (r.classes.flatten.length = 2) | .error _ => false) = true := by decide +kernel

example : (match genInitialise [1] 100 [⟨1, 100, 0, none, none⟩] [] [] with
    | .ok r => decide (r.classes.flatten.length = 1) | .error _ => false) = true := by decide +kernel

/-- a ramp of 20% is kept by a varying output -/
example : ∀ t < 4, rampRule (rampLimit (some (1 / 5)) 10) 10 (fun t => if t % 2 = 0 then 4 else 6) 4 t := by
  rw [C109_ramps_partial (some (1 / 5)) 10 (by norm_num) _ 4 (by intro t; split <;> norm_num) (by intro t; split <;> norm_num)]
  rintro r hr _ _ t ht
  rw [Option.some.injEq] at hr
  subst hr
  rcases (by omega : t = 0 ∨ t = 1 ∨ t = 2 ∨ t = 3) with rfl | rfl | rfl | rfl <;> norm_num [before, abs_le]

/-- ramp settings: full list, and a list that is too short -/
example : rampSettings [1/2, 1/4] none 2 = .ok [some (1/2), some (1/4)] ∧ rampSettings [1/2, 1/4] none 3 = .error .index := by
  constructor <;> decide +kernel

/-- cooling with different types works, with the same type the second unit gets the profile of the first -/
example : derating 2 [1, 0] [0, 1] 2 1 = .ok (0, 1) ∧ derating 2 [1, 0] [1, 1] 2 1 = .ok (1, 1) ∧ derating 3 [1] [] 2 0 = .ok (1, 0) := by
  decide +kernel

/-- baseload: an output that meets half its average, equal weights -/
example : BaseloadOk [1/2] (1/2) [1, 1] (fun t => if t = 0 then 1 else 2) 2 := by
  unfold BaseloadOk
  rw [if_pos (by norm_num)]
  intro t ht
  rcases (by omega : t = 0 ∨ t = 1) with rfl | rfl <;> norm_num [baseloadRule, List.range_succ]

/-- RES limits of two scenarios with two profiles of two periods -/
example : resLimit (defaultLinksRes 2 1 2) [[1, 2], [3, 4]].flatten [10] 2 1 0 1 1 = .ok 40 ∧
    resLimit (defaultLinksRes 1 1 2) [[1, 2]].flatten [10] 2 1 0 1 1 = .ok 20 ∧
    resLimit [1, 0] [[1, 2], [3, 4]].flatten [10] 2 1 0 1 1 = .ok 40 := by
  decide +kernel

end Pyensys
