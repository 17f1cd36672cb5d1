import Verif.Props.Energy

/-!
# Uncertainty flags of the energy tree, continued: the flags that work

C96 is false of the code for a flag in the first period and for a single uncertain node (Props/Energy). Here: with at least two names in the first period every other
choice of flags is accepted, and the state at the end of every uncertain node is fixed by its alternatives.
-/

namespace Pyensys

/-- with two or more nodes in the first level there is never exactly one uncertain node -/
theorem unc_sum_ne_one (L : List Nat) (v : Nat) (unc : List Bool) (hL : L ≠ []) (hu : unc.length = L.length) (hpos : ∀ l ∈ L, 0 < l)
    (hroot : enUnc unc 0 = false) (hwide : 2 ≤ enLen L 0) (t : EnTree) (ht : enConnect (sizeOfL L v) unc = .ok t) : t.uncertainty.sum ≠ 1 := by
  obtain ⟨hs, h0⟩ := enShape L v unc hL hu hpos t ht
  rw [hroot] at h0
  simp only [Bool.false_eq_true, if_false] at h0
  have hsum := unc_sum hs h0
  obtain ⟨t', e, t2⟩ := connect_spec L v unc hL hu
  rw [ht, Except.ok.injEq] at e
  subst e
  intro h1
  rw [h1] at hsum
  obtain ⟨x, hx⟩ := List.length_eq_one_iff.1 hsum.symm
  have hm : x ∈ (List.range' 1 (levelStart L (L.length + 1) - 1)).filter (fun x => !(markAt t x == 0)) := by rw [hx]; simp
  rw [List.mem_filter, mem_inner] at hm
  obtain ⟨⟨x1, x2⟩, x3⟩ := hm
  obtain ⟨k, j, hk, hj, rfl⟩ := nodeId_surj L _ x x2
  have hk0 : k ≠ 0 := by
    rintro rfl
    rw [levelSize_zero] at hj
    have : nodeId L 0 j = 0 := by simp [nodeId, levelStart]; omega
    omega
  -- there is another node in this level
  have hsz : 2 ≤ levelSize L k := by
    obtain ⟨l, L', rfl⟩ := List.exists_cons_of_ne_nil hL
    obtain ⟨k', rfl⟩ := Nat.exists_eq_succ_of_ne_zero hk0
    have hl : 2 ≤ l := by simpa [enLen] using hwide
    rw [levelSize_cons]
    have : 0 < levelSize L' k' := prod_pos_nat _ (fun a ha => hpos a (List.mem_cons_of_mem _ (List.mem_of_mem_take ha)))
    calc 2 ≤ l * 1 := by omega
      _ ≤ l * levelSize L' k' := Nat.mul_le_mul_left _ this
  obtain ⟨j', hj', hne⟩ : ∃ j', j' < levelSize L k ∧ j' ≠ j := by
    by_cases hj0 : j = 0
    · exact ⟨1, by omega, by omega⟩
    · exact ⟨0, by omega, by omega⟩
  have m1 := t2.marks k j (by omega) hj
  have m2 := t2.marks k j' (by omega) hj'
  have hmem : nodeId L k j' ∈ (List.range' 1 (levelStart L (L.length + 1) - 1)).filter (fun x => !(markAt t x == 0)) := by
    rw [List.mem_filter, mem_inner]
    refine ⟨⟨?_, nodeId_lt L hk hj'⟩, ?_⟩
    · have := levelStart_pos L (Nat.pos_of_ne_zero hk0)
      unfold nodeId
      omega
    · unfold markAt at x3 ⊢
      rw [List.getD_eq_getElem?_getD, m1] at x3
      rw [List.getD_eq_getElem?_getD, m2]
      exact x3
  rw [hx, List.mem_singleton] at hmem
  exact hne (nodeId_inj L hj' hj hmem).2

/-- **C96, the flags that work.** If the first period has at least two names and is not flagged (and every period has names, as many weights, and inputs and outputs for
each name and vector), `initialise` succeeds whatever the flags of the other periods are; all nodes of a flagged period are uncertain; and for all weights, inputs and
outputs (the root has none) the constraints have exactly one solution, in which the state at the end of an uncertain node is the one it starts from plus its weight
times its own net input and the changes along its alternatives, each of which starts from the state at the start of the node. -/
theorem C96_flags_partial (data : List EnPeriod) (hpos : ∀ d ∈ data, 0 < d.names) (d0 : EnPeriod) (hd0 : data[0]? = some d0) (hroot : d0.unc = false)
    (hwide : 2 ≤ d0.names) (hal : ∀ d ∈ data, EnAligned d0.inputs.len d) :
    ∃ size t w links, enInitialise data none = .ok (size, t, w, links) ∧
      (∀ (k : Nat) (d : EnPeriod), 1 ≤ k → data[k]? = some d → d.unc = true →
        ∃ first last, t.time[k]? = some (first, last) ∧ first ≤ last ∧ ∀ x, first ≤ x → x ≤ last → t.uncertainty[x]? = some 1) ∧
      ∀ (wght win wout : Nat → Rat), win 0 = wout 0 → ∃ soc : Nat → Nat → Rat, EnFeasible links wght win wout soc ∧
        (∀ soc', EnFeasible links wght win wout soc' → ∀ x, x < size.nodes → soc' x 0 = soc x 0 ∧ soc' x 1 = soc x 1) ∧
        ∀ x, t.uncertainty[x]? = some 1 → ∃ first last b, t.after[x]? = some (first, last) ∧ first ≤ last ∧ t.before[x]? = some b ∧
          (∀ y, first ≤ y → y ≤ last → ∃ by', t.before[y]? = some by' ∧ by'.fwd = (x, 0)) ∧
          soc x 1 = soc b.fwd.1 b.fwd.2 +
            wght x * (win x - wout x + ((List.range (last + 1 - first)).map (fun i => soc (first + i) 1 - soc x 0)).sum) := by
  have hr : ∀ d, data[0]? = some d → d.unc = false := by
    intro d hd
    rw [hd0, Option.some.injEq] at hd
    subst hd
    exact hroot
  obtain ⟨size, t, w, links, h, _⟩ := C97_data_partial data hpos d0 hd0 hroot hal
  obtain ⟨hs, h0, _⟩ := enInitialise_shape h hpos hr
  obtain ⟨hne, ⟨v, rfl⟩, h2, _⟩ := enInitialise_parts h
  have hL : data.map (·.names) ≠ [] := by simpa using hne
  have hu : (data.map (·.unc)).length = (data.map (·.names)).length := by simp
  have hLpos : ∀ l ∈ data.map (·.names), 0 < l := by
    intro l hl
    obtain ⟨d, hd, rfl⟩ := List.mem_map.1 hl
    exact hpos d hd
  have hone : t.uncertainty.sum ≠ 1 := by
    refine unc_sum_ne_one _ v _ hL hu hLpos ?_ ?_ t h2
    · simp [enUnc, List.getD_eq_getElem?_getD, hd0, hroot]
    · simpa [enLen, List.getD_eq_getElem?_getD, hd0] using hwide
  obtain ⟨t', e, t2⟩ := connect_spec _ v _ hL hu
  rw [h2, Except.ok.injEq] at e
  subst e
  refine ⟨_, t, w, links, h, ?_, ?_⟩
  · intro k d hk hkd hkun
    have hkl : k < data.length := (List.getElem?_eq_some_iff.1 hkd).1
    obtain ⟨k', rfl⟩ := Nat.exists_eq_succ_of_ne_zero (show k ≠ 0 by omega)
    have hz : 0 < levelSize (data.map (·.names)) (k' + 1) := prod_pos_nat _ (fun a ha => hLpos a (List.mem_of_mem_take ha))
    refine ⟨_, _, t2.time k' (by simp; omega), ?_, ?_⟩
    · rw [levelStart_succ _ (k' + 1)]
      omega
    · intro x x1 x2
      rw [levelStart_succ _ (k' + 1)] at x2
      have := t2.marks (k' + 1) (x - levelStart (data.map (·.names)) (k' + 1)) (by simp; omega) (by omega)
      rw [show nodeId (data.map (·.names)) (k' + 1) (x - levelStart (data.map (·.names)) (k' + 1)) = x by unfold nodeId; omega] at this
      rw [this]
      have e1 : enUnc (data.map (·.unc)) (k' + 1) = true := by
        rw [enUnc, List.getD_eq_getElem?_getD, List.getElem?_map, hkd]
        exact hkun
      rw [enMarkOf, if_pos ⟨by simpa using hkl, e1⟩]
  · intro wght win wout hw
    obtain ⟨hs', hf⟩ := initialise_feasible h hpos hr hone
    obtain ⟨E, hE⟩ := adds_exists hs' wght (fun x => win x - wout x)
    obtain ⟨soc, hsoc, huniq⟩ := C95_solution h hpos hr hone wght win wout hw
    refine ⟨soc, hsoc, huniq, ?_⟩
    intro x hx
    have hacc := C95_accounting h hpos hr hone wght win wout E hE soc hsoc
    have hxlt := (List.getElem?_eq_some_iff.1 hx).1
    rw [hs.lens.2.2] at hxlt
    have hx0 : 1 ≤ x := by
      rcases Nat.eq_zero_or_pos x with rfl | hp
      · rw [h0] at hx; simp at hx
      · exact hp
    obtain ⟨b, hb⟩ : ∃ b, t.before[x]? = some b := ⟨_, List.getElem?_eq_getElem (by rw [hs.lens.1]; exact hxlt)⟩
    obtain ⟨⟨r1, r2⟩, ha⟩ : ∃ r, t.after[x]? = some r := ⟨_, List.getElem?_eq_getElem (by rw [hs.lens.2.1]; exact hxlt)⟩
    have hnz : (r1, r2) ≠ (0, 0) := by
      intro hz
      rw [hz] at ha
      have := hs.leaves x ha
      rw [hx] at this
      simp at this
    have hch := (hs.children x _ ha).resolve_left hnz
    simp only at hch
    obtain ⟨u, hu1, hu2⟩ := hs.order x _ ha (by simp only; omega)
    rw [hx, Option.some.injEq] at hu1
    subst hu1
    simp only [or_true, if_true] at hu2
    refine ⟨r1, r2, b, ha, hch.2.1, hb, ?_, ?_⟩
    · intro y y1 y2
      obtain ⟨b', _, e1, _, e2, _⟩ := hu2 y y1 y2
      exact ⟨b', e1, e2⟩
    · rw [(hacc x b hx0 hb).2, hE.inner x _ ha hnz]
      congr 3
      simp only
      refine congrArg List.sum (List.map_congr_left ?_)
      intro i hi
      rw [List.mem_range] at hi
      obtain ⟨b', _, e1, _, e2, _⟩ := hu2 (r1 + i) (by omega) (by omega)
      have := (hacc (r1 + i) b' (by omega) e1).2
      rw [e2] at this
      simp only at this
      rw [this]
      ring

/-- the hypotheses are met by a tree with two uncertain nodes -/
example : ∃ d0, twoUncertain[0]? = some d0 ∧ d0.unc = false ∧ 2 ≤ d0.names ∧ (∀ d ∈ twoUncertain, 0 < d.names) ∧ (∀ d ∈ twoUncertain, EnAligned d0.inputs.len d) ∧
    ∃ d, twoUncertain[1]? = some d ∧ d.unc = true := by
  refine ⟨_, rfl, rfl, by decide, by decide +kernel, ?_, _, rfl, rfl⟩
  intro d hd
  simp only [twoUncertain, List.mem_cons, List.not_mem_nil, or_false] at hd
  rcases hd with rfl | rfl <;> exact ⟨rfl, rfl, ⟨rfl, by simp⟩, ⟨rfl, by simp⟩⟩

end Pyensys
