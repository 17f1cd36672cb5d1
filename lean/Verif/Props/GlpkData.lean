import Verif.Props.GlpkPlans

/-!
# C149-C152: the quantities in the rules of the optimal power flow, written out
-/

namespace Pyensys

/-- The words of the rules, without the definitions of the model.
A branch is in use after contingency `k` exactly if its status is on and the branch is present in state `k`.
A conventional unit is in use exactly if it is on and the first bus with its number (if any) is not isolated.
The limit of a renewable unit in period `j` is its capacity times the `j`-th value after its place in the profile; the same holds
for the demand, which stays at the first value if the demand has no profiles (`NoDem` 0).
The demand of the balance is increased by the loss factor, if any; the fixed losses of a branch are shared by its two ends. -/
theorem C149_quantities_partial (c : GnCase) :
    (∀ (b : GnBranch) (k : Nat), b.on k = true ↔ b.status = true ∧ ∃ q, b.n1[k]? = some (some q)) ∧
    (∀ u : GnUnit, gnActive c u = true ↔ u.gen = true ∧ ∀ (n : Nat) (b : GnBus), c.buses[n]? = some b → b.number = u.bus →
      (∀ (m : Nat) (a : GnBus), m < n → c.buses[m]? = some a → a.number ≠ u.bus) → b.type ≠ 4) ∧
    (∀ (u : GnRes) (i j l : Nat) (f : Rat), u.link[i]? = some l → c.resProfile[l + j]? = some f → gnResMax c u i j = f * u.max) ∧
    (∀ (b : GnBus) (i j l : Nat) (f : Rat), b.link[i]? = some l →
      (c.noDem ≠ 0 → c.demProfile[l + j]? = some f → gnMult c b i j = f) ∧
      (c.noDem = 0 → c.demProfile[l]? = some f → gnMult c b i j = f)) ∧
    (∀ (b : GnBus) (i j : Nat), (c.loss = none → gnDemand c b i j = b.demand * gnMult c b i j) ∧
      ∀ l, c.loss = some l → gnDemand c b i j = (1 + l) * (b.demand * gnMult c b i j)) ∧
    (∀ b : GnBus, gnHasGen c b = true ↔ (∃ u ∈ c.conv, u.bus = b.number) ∨ (∃ u ∈ c.res, u.bus = b.number) ∨
      ∃ u ∈ c.hydro, u.bus = b.number) ∧
    (∀ (j : Nat) (h : Rat), c.hours[j]? = some h → gnHours c j = h) ∧
    ((∀ b ∈ c.branches, b.fbus ≠ b.tbus) → ∀ n : Int, gnNonTech c n =
      ((c.branches.filter (fun b => decide (b.fbus = n ∨ b.tbus = n))).map (fun b => b.loss / c.base / 2)).sum) := by
  refine ⟨?_, ?_, ?_, ?_, ?_, ?_, ?_, ?_⟩
  · intro b k
    unfold GnBranch.on
    rw [Bool.and_eq_true, and_comm]
    refine and_congr_right fun _ => ?_
    cases h : b.n1[k]? with
    | none => simp
    | some o => cases o <;> simp
  · intro u
    unfold gnActive
    rw [Bool.and_eq_true]
    refine and_congr_right fun _ => ?_
    cases h : c.buses.find? (fun b => b.number == u.bus) with
    | none =>
      rw [List.find?_eq_none] at h
      simp only [true_iff]
      intro n b hb hn
      exact absurd hn (by simpa using h b (List.mem_of_getElem? hb))
    | some a =>
      obtain ⟨h1, n, hn, h2, h3⟩ := List.find?_eq_some_iff_getElem.1 h
      have ha : c.buses[n]? = some a := by rw [List.getElem?_eq_getElem hn, h2]
      have hf : ∀ (m : Nat) (a : GnBus), m < n → c.buses[m]? = some a → a.number ≠ u.bus := by
        intro m a' hm ha'
        obtain ⟨hm', e⟩ := List.getElem?_eq_some_iff.1 ha'
        have := h3 m hm
        rw [e] at this
        simpa using this
      constructor
      · intro ht m b hb hbn hfirst
        have hmn : m = n := by
          rcases Nat.lt_trichotomy m n with hlt | he | hgt
          · exact absurd hbn (hf m b hlt hb)
          · exact he
          · exact absurd (by simpa using h1) (hfirst n a hgt ha)
        subst hmn
        rw [ha, Option.some.injEq] at hb
        subst hb
        simpa using ht
      · intro hh
        have := hh n a ha (by simpa using h1) hf
        simpa using this
  · intro u i j l f hl hf
    simp only [gnResMax, hl, Option.getD_some, hf]
  · intro b i j l f hl
    refine ⟨fun h0 hf => ?_, fun h0 hf => ?_⟩
    · simp only [gnMult, hl, Option.getD_some, if_neg h0, Nat.add_comm j l, hf]
    · simp only [gnMult, hl, Option.getD_some, if_pos h0, Nat.zero_add, hf]
  · intro b i j
    refine ⟨fun h => by simp only [gnDemand, h], fun l h => ?_⟩
    simp only [gnDemand, h]
    ring
  · intro b
    simp [gnHasGen, or_assoc]
  · intro j h hh
    simp only [gnHours, hh, Option.getD_some]
  · intro hne n
    unfold gnNonTech
    generalize c.branches = l at hne
    induction l with
    | nil => rfl
    | cons b t ih =>
      have hb := hne b (List.mem_cons_self ..)
      have ih := ih (fun a ha => hne a (List.mem_cons_of_mem _ ha))
      rw [List.map_cons, List.sum_cons, ih, List.filter_cons]
      by_cases hf : b.fbus = n
      · have ht : b.tbus ≠ n := fun h => hb (hf.trans h.symm)
        simp [hf, ht]; ring
      · by_cases ht : b.tbus = n
        · simp [hf, ht]; ring
        · simp [hf, ht]

/-- the conditions on links and profiles are what the run needs: they hold for every case that is set up -/
theorem C149_quantities_given_partial {c : GnCase} (h : gnInit c = .ok ()) {i j : Nat} (hi : i < c.insts) (hj : j < c.periods) :
    (∀ u ∈ c.res, ∃ l f, u.link[i]? = some l ∧ c.resProfile[l + j]? = some f) ∧
    (∀ b ∈ c.buses, ∃ l f, b.link[i]? = some l ∧ (c.noDem ≠ 0 → c.demProfile[l + j]? = some f) ∧
      (c.noDem = 0 → c.demProfile[l]? = some f)) ∧
    ∃ g, c.hours[j]? = some g := by
  unfold gnInit at h
  split at h
  · simp at h
  rename_i h1
  split at h
  · simp at h
  split at h
  · simp at h
  split at h
  · simp at h
  rename_i h2
  split at h
  · simp at h
  split at h
  · simp at h
  rename_i h3
  rw [not_not] at h1 h2
  refine ⟨?_, ?_, ?_⟩
  · intro u hu
    unfold gnResOk at h1
    simp only [Bool.and_eq_true, List.all_eq_true] at h1
    have := h1.1.1 u hu i (List.mem_range.2 hi)
    cases hl : u.link[i]? with
    | none => rw [hl] at this; simp at this
    | some l =>
      rw [hl] at this
      simp only [List.all_eq_true, decide_eq_true_eq] at this
      exact ⟨l, _, rfl, List.getElem?_eq_getElem (this j (List.mem_range.2 hj))⟩
  · intro b hb
    unfold gnDemandOk at h2
    simp only [List.all_eq_true] at h2
    have := h2 b hb i (List.mem_range.2 hi)
    cases hl : b.link[i]? with
    | none => rw [hl] at this; simp at this
    | some l =>
      rw [hl] at this
      by_cases h0 : c.noDem = 0
      · simp only [h0, if_true, decide_eq_true_eq] at this
        exact ⟨l, _, rfl, fun hn => absurd h0 hn, fun _ => List.getElem?_eq_getElem this⟩
      · simp only [h0, if_false, List.all_eq_true, decide_eq_true_eq] at this
        exact ⟨l, _, rfl, fun _ => List.getElem?_eq_getElem (this j (List.mem_range.2 hj)), fun hn => absurd hn h0⟩
  · exact ⟨_, List.getElem?_eq_getElem (by omega)⟩

end Pyensys
