import Verif.Props.PlanData
import Mathlib.Tactic.FieldSimp
import Mathlib.Tactic.Linarith
import Mathlib.Algebra.Order.Field.Rat
import Mathlib.Tactic.Positivity

/-!
# C167-C168: discounting, capital recovery and the costs of generators
-/

namespace Pyensys

/-- a loop that writes one entry per number -/
theorem foldlM_write {α : Type} (f : Nat → Except PyErr α) (n m : Nat) (l r : List α) (hl : m + n ≤ l.length) :
    (List.range' m n).foldlM (fun l y => do let a ← f y; npSet l y a) l = .ok r ↔
      r.length = l.length ∧ (∀ k, m ≤ k → k < m + n → ∃ a, f k = .ok a ∧ r[k]? = some a) ∧ ∀ k, k < m ∨ m + n ≤ k → r[k]? = l[k]? := by
  induction n generalizing m l with
  | zero =>
    simp only [List.range'_zero, List.foldlM_nil, pure, Except.pure, Except.ok.injEq, Nat.add_zero]
    constructor
    · rintro rfl
      exact ⟨rfl, fun k h1 h2 => by omega, fun _ _ => rfl⟩
    · rintro ⟨_, _, h⟩
      apply List.ext_getElem?
      intro k
      exact (h k (by omega)).symm
  | succ n ih =>
    rw [List.range'_succ, List.foldlM_cons]
    cases hf : f m with
    | error e =>
      simp only [bind, Except.bind, reduceCtorEq, false_iff]
      rintro ⟨_, h, _⟩
      obtain ⟨a, ha, _⟩ := h m (le_refl _) (by omega)
      rw [hf] at ha
      cases ha
    | ok a =>
      simp only [bind, Except.bind]
      rw [npSet_ok a (by omega)]
      simp only
      have := ih (m + 1) (l.set m a) (by simp; omega)
      simp only [bind, Except.bind] at this
      rw [this]
      simp only [List.length_set]
      refine and_congr_right fun hlen => ?_
      constructor
      · rintro ⟨h1, h2⟩
        refine ⟨fun k hk1 hk2 => ?_, fun k hk => ?_⟩
        · by_cases hkm : k = m
          · subst hkm
            refine ⟨a, hf, ?_⟩
            rw [h2 k (by omega), List.getElem?_set_self (by omega)]
          · exact h1 k (by omega) (by omega)
        · rw [h2 k (by omega), List.getElem?_set_ne (by omega)]
      · rintro ⟨h1, h2⟩
        refine ⟨fun k hk1 hk2 => h1 k (by omega) (by omega), fun k hk => ?_⟩
        by_cases hkm : k = m
        · subst hkm
          obtain ⟨b, hb, hr⟩ := h1 k (le_refl _) (by omega)
          rw [hf, Except.ok.injEq] at hb
          subst hb
          rw [hr, List.getElem?_set_self (by omega)]
        · rw [h2 k (by omega), List.getElem?_set_ne (by omega)]

theorem pdDiv_iff (a b c : Rat) : pdDiv a b = .ok c ↔ b ≠ 0 ∧ c = a / b := by
  unfold pdDiv
  split
  · rename_i h; simp [h]
  · rename_i h; simp [h, eq_comm]

theorem getFactors_iff (d : Rat) (n : Nat) (df crf : List Rat) : getFactors d n = .ok (df, crf) ↔
    (df.length = n ∧ ∀ k, k < n → (1 - d) ^ k ≠ 0 ∧ df[k]? = some (1 / (1 - d) ^ k)) ∧
    (crf.length = n ∧ (0 < n → crf[0]? = some 1) ∧ ∀ k, 1 ≤ k → k < n → (1 + d) ^ (k * 10) ≠ 1 ∧
      crf[k]? = some (d * (1 + d) ^ (k * 10) / ((1 + d) ^ (k * 10) - 1))) := by
  have h1 : pdDiscount d n = .ok df ↔ (df.length = n ∧ ∀ k, k < n → (1 - d) ^ k ≠ 0 ∧ df[k]? = some (1 / (1 - d) ^ k)) := by
    unfold pdDiscount
    rw [List.range_eq_range', foldlM_write (fun y => pdDiv 1 ((1 - d) ^ y)) n 0 _ _ (by simp), List.length_replicate]
    refine and_congr_right fun hlen => ?_
    constructor
    · rintro ⟨h, _⟩ k hk
      obtain ⟨a, ha, hr⟩ := h k (by omega) (by omega)
      obtain ⟨h3, rfl⟩ := (pdDiv_iff _ _ _).1 ha
      exact ⟨h3, hr⟩
    · intro h
      refine ⟨fun k _ hk => ?_, fun k hk => ?_⟩
      · obtain ⟨h3, h4⟩ := h k (by omega)
        exact ⟨_, (pdDiv_iff _ _ _).2 ⟨h3, rfl⟩, h4⟩
      · rw [List.getElem?_eq_none (by omega), List.getElem?_eq_none (by simp; omega)]
  have h2 : pdRecovery d n = .ok crf ↔ (crf.length = n ∧ (0 < n → crf[0]? = some 1) ∧ ∀ k, 1 ≤ k → k < n → (1 + d) ^ (k * 10) ≠ 1 ∧
      crf[k]? = some (d * (1 + d) ^ (k * 10) / ((1 + d) ^ (k * 10) - 1))) := by
    unfold pdRecovery
    by_cases hn : n = 0
    · subst hn
      simp [pure, Except.pure, eq_comm]
    rw [foldlM_write (fun xy => pdDiv (d * (1 + d) ^ (xy * 10)) ((1 + d) ^ (xy * 10) - 1)) (n - 1) 1 _ _ (by simp; omega), List.length_replicate]
    refine and_congr_right fun hlen => ?_
    constructor
    · rintro ⟨h, h0⟩
      refine ⟨fun hp => ?_, fun k hk1 hk2 => ?_⟩
      · rw [h0 0 (by omega), List.getElem?_replicate, if_pos hp]
      · obtain ⟨a, ha, hr⟩ := h k (by omega) (by omega)
        obtain ⟨h3, rfl⟩ := (pdDiv_iff _ _ _).1 ha
        exact ⟨fun e => h3 (by rw [e]; ring), hr⟩
    · rintro ⟨h0, h⟩
      refine ⟨fun k hk1 hk => ?_, fun k hk => ?_⟩
      · obtain ⟨h3, h4⟩ := h k (by omega) (by omega)
        exact ⟨_, (pdDiv_iff _ _ _).2 ⟨fun e => h3 (by linarith), rfl⟩, h4⟩
      · rcases hk with hk | hk
        · have : k = 0 := by omega
          subst this
          rw [h0 (by omega), List.getElem?_replicate, if_pos (by omega)]
        · rw [List.getElem?_eq_none (by omega), List.getElem?_eq_none (by simp; omega)]
  unfold getFactors
  rw [except_bind_ok]
  constructor
  · rintro ⟨a, ha, hb⟩
    rw [except_bind_ok] at hb
    obtain ⟨b, hb, e⟩ := hb
    rw [Except.ok.injEq, Prod.mk.injEq] at e
    obtain ⟨rfl, rfl⟩ := e
    exact ⟨h1.1 ha, h2.1 hb⟩
  · rintro ⟨ha, hb⟩
    exact ⟨df, h1.2 ha, by rw [except_bind_ok]; exact ⟨crf, h2.2 hb, rfl⟩⟩

/-- the value today of one unit a year for `n` years -/
def annuity (d : Rat) : Nat → Rat
  | 0 => 0
  | n + 1 => annuity d n + 1 / (1 + d) ^ (n + 1)

theorem annuity_mul (d : Rat) (h : 1 + d ≠ 0) (n : Nat) : d * (1 + d) ^ n * annuity d n = (1 + d) ^ n - 1 := by
  induction n with
  | zero => simp [annuity]
  | succ n ih =>
    have h2 : (1 + d) ^ (n + 1) ≠ 0 := pow_ne_zero _ h
    rw [annuity, mul_add, mul_assoc, mul_assoc, mul_one_div, div_self h2]
    have : d * ((1 + d) ^ (n + 1) * annuity d n) = (1 + d) * (d * (1 + d) ^ n * annuity d n) := by ring
    rw [this, ih]
    ring

/-- **C167** for the capital recovery: at every interest that is accepted, but for the loss of all (-1), the yearly payment of a position `y` after the first pays back exactly one unit of
capital in `10 y` years. -/
theorem C167_recovery_partial (d : Rat) (n : Nat) (df crf : List Rat) (h : getFactors d n = .ok (df, crf)) (hd : d ≠ -1) : crf.length = n ∧ (0 < n → crf[0]? = some 1) ∧
    ∀ y, 1 ≤ y → y < n → ∃ c, crf[y]? = some c ∧ c * annuity d (10 * y) = 1 := by
  obtain ⟨_, h1, h2, h3⟩ := (getFactors_iff d n df crf).1 h
  refine ⟨h1, h2, fun y hy1 hy2 => ?_⟩
  obtain ⟨h4, h5⟩ := h3 y hy1 hy2
  refine ⟨_, h5, ?_⟩
  have hd' : 1 + d ≠ 0 := fun e => hd (by linarith)
  have hm := annuity_mul d hd' (y * 10)
  have h6 : (1 + d) ^ (y * 10) - 1 ≠ 0 := fun e => h4 (by linarith)
  rw [Nat.mul_comm 10 y, div_mul_eq_mul_div, hm, div_self h6]

/-- **C167 fails** for the discount: later years weigh more, not less: at any rate between 0 and 1 every factor after the first is above one, it is not `1 / (1 + d) ^ y`, and the factors grow. -/
theorem C167_discount_violated (d : Rat) (n : Nat) (df crf : List Rat) (h : getFactors d n = .ok (df, crf)) (h0 : 0 < d) (h1 : d < 1) :
    ∀ y, 1 ≤ y → y < n → ∃ f g, df[y]? = some f ∧ df[y - 1]? = some g ∧ 1 < f ∧ g < f ∧ f ≠ 1 / (1 + d) ^ y := by
  obtain ⟨⟨_, h3⟩, _⟩ := (getFactors_iff d n df crf).1 h
  intro y hy1 hy2
  obtain ⟨m, rfl⟩ : ∃ m, y = m + 1 := ⟨y - 1, by omega⟩
  refine ⟨_, _, (h3 (m + 1) hy2).2, (h3 (m + 1 - 1) (by omega)).2, ?_⟩
  have hp : 0 < 1 - d := by linarith
  have hm : 0 < (1 - d) ^ m := pow_pos hp _
  have hle : (1 - d) ^ m ≤ 1 := pow_le_one₀ hp.le (by linarith)
  have hlt : (1 - d) ^ (m + 1) < (1 - d) ^ m := by
    rw [pow_succ]
    nlinarith
  have h4 : 0 < (1 - d) ^ (m + 1) := pow_pos hp _
  have h5 : 1 < 1 / (1 - d) ^ (m + 1) := by
    rw [lt_div_iff₀ h4]
    linarith
  refine ⟨h5, ?_, ?_⟩
  · rw [Nat.add_sub_cancel]
    exact one_div_lt_one_div_of_lt h4 hlt
  · intro e
    have h6 : 1 ≤ (1 + d) ^ (m + 1) := one_le_pow₀ (by linarith)
    have : 1 / (1 + d) ^ (m + 1) ≤ 1 := by
      rw [div_le_one (by linarith)]
      exact h6
    linarith

theorem sq_pow_one (x : Rat) (k : Nat) (hk : 1 ≤ k) : x ^ (k * 10) = 1 ↔ x = 1 ∨ x = -1 := by
  constructor
  · intro h
    have h2 : (x ^ 2) ^ (5 * k) = 1 := by rw [← pow_mul]; rw [← h]; congr 1; ring
    have h3 : x ^ 2 = 1 := (pow_eq_one_iff_of_nonneg (sq_nonneg x) (by omega)).1 h2
    have h4 : (x - 1) * (x + 1) = 0 := by ring_nf; rw [h3]; ring
    rcases mul_eq_zero.1 h4 with h | h
    · left; linarith
    · right; linarith
  · rintro (rfl | rfl)
    · exact one_pow _
    · rw [show k * 10 = 2 * (k * 5) by ring, pow_mul]
      norm_num

/-- The factors are given exactly if there is at most one year or the rate is none of 1, 0 and -2; in particular there are none without interest. -/
theorem C167_given_partial (d : Rat) (n : Nat) : (∃ r, getFactors d n = .ok r) ↔ n ≤ 1 ∨ (d ≠ 1 ∧ d ≠ 0 ∧ d ≠ -2) := by
  constructor
  · rintro ⟨⟨df, crf⟩, h⟩
    by_cases hn : n ≤ 1
    · exact .inl hn
    right
    obtain ⟨⟨_, h3⟩, _, _, h4⟩ := (getFactors_iff d n df crf).1 h
    have h5 := (h3 1 (by omega)).1
    have h6 := (h4 1 (le_refl _) (by omega)).1
    rw [Ne, sq_pow_one _ _ (le_refl _)] at h6
    refine ⟨?_, ?_, ?_⟩
    · rintro rfl; exact h5 (by norm_num)
    · rintro rfl; exact h6 (.inl (by norm_num))
    · rintro rfl; exact h6 (.inr (by norm_num))
  · intro h
    refine ⟨((List.range n).map (fun k => 1 / (1 - d) ^ k), (List.range n).map (fun k => if k = 0 then 1 else d * (1 + d) ^ (k * 10) / ((1 + d) ^ (k * 10) - 1))), ?_⟩
    rw [getFactors_iff]
    refine ⟨⟨by simp, fun k hk => ⟨?_, ?_⟩⟩, by simp, fun hn => ?_, fun k h1 hk => ⟨?_, ?_⟩⟩
    · rcases h with h | h
      · have : k = 0 := by omega
        subst this
        norm_num
      · exact pow_ne_zero _ (fun e => h.1 (by linarith))
    · rw [List.getElem?_map, List.getElem?_range hk]
      rfl
    · rw [List.getElem?_map, List.getElem?_range hn]
      rfl
    · rw [Ne, sq_pow_one _ _ h1]
      rcases h with h | h
      · omega
      · rintro (e | e)
        · exact h.2.1 (by linarith)
        · exact h.2.2 (by linarith)
    · rw [List.getElem?_map, List.getElem?_range hk]
      simp [show k ≠ 0 by omega]

theorem C167_witness : (getFactors (1 / 2) 2).toOption = some ([1, 2], [1, 59049 / 116050]) := by decide +kernel

/-! ## C168 -/

theorem pdSetFirst_iff (cost : List (List Rat)) (k : Nat) (v : Rat) (r : List (List Rat)) : pdSetFirst cost k v = .ok r ↔
    ∃ a t, cost[k]? = some (a :: t) ∧ r = cost.set k (v :: t) := by
  unfold pdSetFirst
  simp only [except_bind_ok, npGet_iff, npSet_iff]
  constructor
  · rintro ⟨row, h1, row2, ⟨h2, rfl⟩, h3, rfl⟩
    cases row with
    | nil => simp at h2
    | cons a t => exact ⟨a, t, h1, rfl⟩
  · rintro ⟨a, t, h1, rfl⟩
    exact ⟨_, h1, _, ⟨by simp, rfl⟩, (List.getElem?_eq_some_iff.1 h1).1, rfl⟩

/-- the table in which the first coefficient of the first `n` rows is replaced -/
def WithFirst (n : Nat) (v : Nat → Rat) (cost r : List (List Rat)) : Prop :=
  r.length = cost.length ∧ (∀ k, k < n → ∃ a t, cost[k]? = some (a :: t) ∧ r[k]? = some (v k :: t)) ∧ ∀ k, n ≤ k → r[k]? = cost[k]?

theorem setFirst_loop (v : Nat → Rat) (f : Nat → Except PyErr Rat) (n m : Nat) (hf : ∀ k, m ≤ k → k < m + n → f k = .ok (v k)) (cost : List (List Rat))
    (hc : ∀ k, m ≤ k → k < m + n → ∃ a t, cost[k]? = some (a :: t)) :
    ∃ r, (List.range' m n).foldlM (fun c k => do let x ← f k; pdSetFirst c k x) cost = .ok r ∧ r.length = cost.length ∧
      (∀ k, m ≤ k → k < m + n → ∃ a t, cost[k]? = some (a :: t) ∧ r[k]? = some (v k :: t)) ∧ ∀ k, k < m ∨ m + n ≤ k → r[k]? = cost[k]? := by
  induction n generalizing m cost with
  | zero => exact ⟨cost, rfl, rfl, fun k h1 h2 => by omega, fun _ _ => rfl⟩
  | succ n ih =>
    obtain ⟨a, t, ha⟩ := hc m (le_refl _) (by omega)
    have hlt := (List.getElem?_eq_some_iff.1 ha).1
    have h1 : pdSetFirst cost m (v m) = .ok (cost.set m (v m :: t)) := (pdSetFirst_iff _ _ _ _).2 ⟨a, t, ha, rfl⟩
    obtain ⟨r, h2, h3, h4, h5⟩ := ih (m + 1) (fun k hk1 hk2 => hf k (by omega) (by omega)) (cost.set m (v m :: t)) (by
      intro k hk1 hk2
      rw [List.getElem?_set_ne (by omega)]
      exact hc k (by omega) (by omega))
    refine ⟨r, ?_, by rw [h3, List.length_set], ?_, ?_⟩
    · rw [List.range'_succ, List.foldlM_cons, hf m (le_refl _) (by omega)]
      simp only [bind, Except.bind, h1]
      simp only [bind, Except.bind] at h2
      exact h2
    · intro k hk1 hk2
      by_cases hkm : k = m
      · subst hkm
        exact ⟨a, t, ha, by rw [h5 k (by omega), List.getElem?_set_self hlt]⟩
      · obtain ⟨b, s, h6, h7⟩ := h4 k (by omega) (by omega)
        rw [List.getElem?_set_ne (by omega)] at h6
        exact ⟨b, s, h6, h7⟩
    · intro k hk
      rw [h5 k (by omega), List.getElem?_set_ne (by omega)]

/-- **C168**: once capacities and costs have been recorded, the capacities are those of the branches in their order; removing the costs of generation always succeeds: it leaves every entry but the
first one of each generator, which becomes 0.1; and restoring gives the table that was there before, whatever number other than 0 is passed. -/
theorem C168_restore (rateA : List Rat) (noBranch : Nat) (cost : List (List Rat)) (noGen : Nat) (bra gen : List Rat)
    (h : recordValues rateA noBranch cost noGen = .ok (bra, gen)) : bra = rateA.take noBranch ∧ bra.length = noBranch ∧
    ∃ c0, replaceGenCost noGen cost gen 0 = .ok c0 ∧ WithFirst noGen (fun _ => 1 / 10) cost c0 ∧
      ∀ action : Int, action ≠ 0 → replaceGenCost noGen c0 gen action = .ok cost := by
  unfold recordValues at h
  simp only [except_bind_ok, mapM_range_iff, Except.ok.injEq, Prod.mk.injEq] at h
  obtain ⟨b, ⟨hb1, hb2⟩, g, ⟨hg1, hg2⟩, rfl, rfl⟩ := h
  have hc : ∀ k, k < noGen → ∃ a t, cost[k]? = some (a :: t) ∧ g[k]? = some a := by
    intro k hk
    obtain ⟨a, h1, h2⟩ := hg2 k hk
    unfold pdFirst at h2
    simp only [except_bind_ok, npGet_iff] at h2
    obtain ⟨row, h3, h4⟩ := h2
    cases row with
    | nil => simp at h4
    | cons x t =>
      simp only [List.getElem?_cons_zero, Option.some.injEq] at h4
      subst h4
      exact ⟨x, t, h3, h1⟩
  refine ⟨?_, hb1, ?_⟩
  · apply List.ext_getElem?
    intro k
    by_cases hk : k < noBranch
    · obtain ⟨a, h1, h2⟩ := hb2 k hk
      rw [h1, List.getElem?_take_of_lt hk, npGet_iff.1 h2]
    · rw [List.getElem?_eq_none (by omega), List.getElem?_eq_none (by simp; omega)]
  · obtain ⟨c0, h1, h2, h3, h4⟩ := setFirst_loop (fun _ => 1 / 10) (fun _ => .ok (1 / 10)) noGen 0 (fun _ _ _ => rfl) cost (by
      intro k _ hk
      obtain ⟨a, t, ha, _⟩ := hc k (by omega)
      exact ⟨a, t, ha⟩)
    refine ⟨c0, ?_, ⟨h2, fun k hk => h3 k (by omega) (by omega), fun k hk => h4 k (by omega)⟩, ?_⟩
    · unfold replaceGenCost
      rw [if_pos rfl, List.range_eq_range']
      exact h1
    · intro action ha
      obtain ⟨c1, g1, g2, g3, g4⟩ := setFirst_loop (fun k => (g[k]?).getD 0) (fun k => npGet g k) noGen 0 (by
        intro k _ hk
        obtain ⟨a, t, _, hx⟩ := hc k (by omega)
        rw [npGet_some hx, hx]
        rfl) c0 (by
        intro k _ hk
        obtain ⟨a, t, _, hx⟩ := h3 k (by omega) (by omega)
        exact ⟨_, t, hx⟩)
      unfold replaceGenCost
      rw [if_neg ha, List.range_eq_range']
      rw [g1, Except.ok.injEq]
      apply List.ext_getElem?
      intro k
      by_cases hk : k < noGen
      · obtain ⟨a, t, k1, k2⟩ := g3 k (by omega) (by omega)
        obtain ⟨a', t', k3, k4⟩ := h3 k (by omega) (by omega)
        obtain ⟨a'', t'', k5, k6⟩ := hc k hk
        rw [k4, Option.some.injEq, List.cons.injEq] at k1
        rw [k5, Option.some.injEq, List.cons.injEq] at k3
        rw [k2, k5, k6, ← k1.2, ← k3.2]
        rfl
      · rw [g4 k (by omega), h4 k (by omega)]

/-- values are recorded exactly if there is a capacity for each branch and a first cost for each generator -/
theorem C168_given (rateA : List Rat) (noBranch : Nat) (cost : List (List Rat)) (noGen : Nat) : (∃ r, recordValues rateA noBranch cost noGen = .ok r) ↔
    noBranch ≤ rateA.length ∧ noGen ≤ cost.length ∧ ∀ row ∈ cost.take noGen, row ≠ [] := by
  constructor
  · rintro ⟨⟨bra, gen⟩, h⟩
    have hr := C168_restore rateA noBranch cost noGen bra gen h
    obtain ⟨h1, h2, c0, _, ⟨_, h4, _⟩, _⟩ := hr
    rw [h1, List.length_take] at h2
    refine ⟨by omega, ?_, ?_⟩
    · by_contra hlt
      push Not at hlt
      obtain ⟨a, t, hc, _⟩ := h4 cost.length hlt
      simp at hc
    · intro row hrow e
      subst e
      obtain ⟨k, hk, he⟩ := List.getElem_of_mem hrow
      rw [List.length_take] at hk
      rw [List.getElem_take] at he
      obtain ⟨a, t, hc, _⟩ := h4 k (by omega)
      rw [List.getElem?_eq_getElem (by omega), he] at hc
      cases hc
  · rintro ⟨h1, h2, h3⟩
    obtain ⟨b, hb⟩ := mapM_total_of (npGet rateA) (List.range noBranch) (fun k hk => by
      have := List.mem_range.1 hk
      exact ⟨_, npGet_some (List.getElem?_eq_getElem (by omega))⟩)
    obtain ⟨g, hg⟩ := mapM_total_of (pdFirst cost) (List.range noGen) (fun k hk => by
      have hk := List.mem_range.1 hk
      have hrow : cost[k]'(by omega) ∈ cost.take noGen := List.mem_take_iff_getElem.2 ⟨k, by omega, rfl⟩
      have hne := h3 _ hrow
      obtain ⟨a, t, he⟩ := List.exists_cons_of_ne_nil hne
      refine ⟨a, ?_⟩
      unfold pdFirst
      rw [npGet_some (List.getElem?_eq_getElem (by omega : k < cost.length))]
      simp only [bind, Except.bind, he]
      rfl)
    refine ⟨(b, g), ?_⟩
    unfold recordValues
    rw [hb]
    simp only [bind, Except.bind]
    rw [hg]

theorem C168_witness : (recordValues [100, 200] 2 [[5, 1], [7, 2, 3]] 2).toOption = some ([100, 200], [5, 7]) ∧
    (replaceGenCost 2 [[5, 1], [7, 2, 3]] [5, 7] 0).toOption = some [[1 / 10, 1], [1 / 10, 2, 3]] := by decide +kernel

end Pyensys
