import Verif.Props.SearchRun

/-!
# C20 and C21: deleting and renumbering stored solutions
-/

namespace Pyensys

/-! ## C20: renumbering -/

theorem eraseFold_eq (keep r : List Int) (hr : r.Nodup) :
    keep.foldl (fun r k => if r.contains k then r.erase k else r) r = r.filter (fun k => k ∉ keep) := by
  induction keep generalizing r with
  | nil => simp
  | cons k keep ih =>
    rw [List.foldl_cons]
    have hstep : (if r.contains k then r.erase k else r) = r.filter (fun x => x ≠ k) := by
      split
      · rw [hr.erase_eq_filter]
        apply List.filter_congr
        intro x _
        by_cases hx : x = k <;> simp [hx]
      · next h =>
        rw [List.filter_eq_self.2]
        intro a ha
        simp only [ne_eq, decide_eq_true_eq]
        rintro rfl
        exact h (by simpa using ha)
    rw [hstep, ih _ (hr.filter _), List.filter_filter]
    apply List.filter_congr
    intro x _
    simp only [List.mem_cons, not_or, ne_eq, Bool.decide_and, Bool.and_comm]

/-- a key is one of `0, ..., n-1` -/
def inRange (n : Nat) (k : Int) : Bool := 0 ≤ k ∧ k < n

theorem mem_ints {n : Nat} {k : Int} : k ∈ ints n ↔ 0 ≤ k ∧ k < n := by
  unfold ints
  simp only [List.mem_map, List.mem_range]
  constructor
  · rintro ⟨i, hi, rfl⟩; omega
  · intro h; exact ⟨k.toNat, by omega, by omega⟩

theorem keysToRenumber_eq (info : Info) (hd : Distinct info.incPaths) :
    keysToRenumber info =
      (info.incPaths.map (·.1)).filter (fun k => !inRange info.incPaths.length k) := by
  unfold keysToRenumber
  simp only
  rw [eraseFold_eq _ _ hd]
  apply List.filter_congr
  intro k hk
  have : k ∈ ((List.range (info.incPaths.map (·.1)).length).map (fun (n : Nat) => (n : Int))).filter
      (fun n => (info.incPaths.map (·.1)).contains n) ↔ 0 ≤ k ∧ k < (info.incPaths.length : Int) := by
    rw [List.mem_filter]
    have := mem_ints (n := (info.incPaths.map (·.1)).length) (k := k)
    unfold ints at this
    rw [this]
    simp only [List.length_map, List.contains_eq_mem, hk, decide_true, and_true]
  simp only [this, inRange]
  by_cases h1 : (0 : Int) ≤ k <;> by_cases h2 : k < (info.incPaths.length : Int) <;> simp [h1, h2]

theorem renumberFold_keys (ks : List Int) (i : Nat) {info R P C} (S T : List (Int × Row))
    (h : Stored info R P C) (hR : R = S ++ T) (hS : (S.map (·.1)).Nodup) (hks : ks.Nodup)
    (hsub : ∀ k ∈ ks, k ∈ S.map (·.1)) (hT : ∀ k ∈ ks, k ∉ T.map (·.1))
    (hrange : ∀ k ∈ ks, k < 0 ∨ ((i + ks.length : Nat) : Int) ≤ k) :
    ∃ info' R', (ks.zipIdx i).foldlM (fun info p => renumberOne info (p.2 : Int) p.1) info = .ok info' ∧
      Stored info' R' P C ∧ SameRest info info' ∧
      R'.map (·.1) = (S.map (·.1)).filter (fun k => k ∉ ks) ++ T.map (·.1) ++
        (List.range ks.length).map (fun (j : Nat) => ((i + j : Nat) : Int)) := by
  induction ks generalizing i info R S T with
  | nil => exact ⟨info, R, rfl, h, SameRest.refl _, by simp [hR]⟩
  | cons k ks ih =>
    have hkS := hsub k (by simp)
    have hkR : k ∈ R.map (·.1) := by rw [hR, List.map_append]; exact List.mem_append_left _ hkS
    obtain ⟨i1, R1, he, hs, ⟨a, v, b, hab, hb, hR1⟩, hr, _⟩ := renumberOne_spec h hkR (i : Int)
    have hkT := hT k (by simp)
    -- the rest of the list is the list without `k`
    have hcount : (S ++ T).filter (fun e => e.1 ≠ k) = a ++ b := by
      have hRk : a ++ (k, v) :: b = S ++ T := by rw [← hab, hR]
      rw [← hRk, List.filter_append, List.filter_cons]
      have hb' : b.filter (fun e => e.1 ≠ k) = b := List.filter_eq_self.2 (by
        intro e he; simpa using hb e he)
      have ha' : a.filter (fun e => e.1 ≠ k) = a := by
        apply List.filter_eq_self.2
        intro e he
        simp only [ne_eq, decide_eq_true_eq]
        intro hek
        have hc : (R.map (·.1)).count k ≤ 1 := by
          rw [hR, List.map_append, List.count_append, List.count_eq_zero.2 hkT]
          have := List.nodup_iff_count_le_one.1 hS k
          omega
        rw [hab, List.map_append, List.map_cons, List.count_append, List.count_cons_self] at hc
        have : 0 < (a.map (·.1)).count k :=
          List.count_pos_iff.2 (List.mem_map.2 ⟨e, he, hek⟩)
        omega
      rw [ha', hb']
      simp
    have hsplit : a ++ b = S.filter (fun e => e.1 ≠ k) ++ T := by
      rw [← hcount, List.filter_append]
      congr 1
      apply List.filter_eq_self.2
      intro e he
      simp only [ne_eq, decide_eq_true_eq]
      intro hek
      exact hkT (List.mem_map.2 ⟨e, he, hek⟩)
    have hkeysF : (S.filter (fun e => e.1 ≠ k)).map (·.1) = (S.map (·.1)).filter (fun x => x ≠ k) := by
      rw [List.filter_map]; rfl
    rw [List.nodup_cons] at hks
    obtain ⟨i2, R2, he2, hs2, hr2, hk2⟩ := ih (i + 1) (S.filter (fun e => e.1 ≠ k))
      (T ++ [((i : Int), v)]) hs (by rw [hR1, hsplit, List.append_assoc])
      (by rw [hkeysF]; exact hS.filter _) hks.2
      (by
        intro x hx
        rw [hkeysF, List.mem_filter]
        refine ⟨hsub x (by simp [hx]), ?_⟩
        simp only [ne_eq, decide_eq_true_eq]
        rintro rfl; exact hks.1 hx)
      (by
        intro x hx
        rw [List.map_append, List.mem_append, not_or]
        refine ⟨hT x (by simp [hx]), ?_⟩
        simp only [List.map_cons, List.map_nil, List.mem_singleton]
        have := hrange x (by simp [hx])
        simp only [List.length_cons] at this
        omega)
      (by
        intro x hx
        have := hrange x (by simp [hx])
        simp only [List.length_cons] at this
        rcases this with h | h
        · exact Or.inl h
        · exact Or.inr (by push_cast at h ⊢; omega))
    refine ⟨i2, R2, ?_, hs2, hr.trans hr2, ?_⟩
    · rw [List.zipIdx_cons, List.foldlM_cons, he, exc_bind_ok, he2]
    · rw [hk2, hkeysF, List.filter_filter]
      simp only [List.map_append, List.map_cons, List.map_nil, List.length_cons, List.append_assoc]
      congr 1
      · apply List.filter_congr
        intro x _
        simp only [List.mem_cons, not_or, ne_eq, Bool.decide_and, Bool.and_comm]
      · congr 1
        rw [List.range_succ_eq_map, List.map_cons, List.map_map]
        simp only [List.singleton_append, Nat.add_zero, List.cons.injEq, true_and]
        apply List.map_congr_left
        intro j _
        simp only [Function.comp, Nat.succ_eq_add_one]
        congr 1; omega

/-- C20, exact description.  Starting from pairwise distinct keys, let `n` be the number of stored
solutions, `kept` the keys among `0..n-1` and `moved` the others.  After renumbering the keys are
`kept` (in their order) followed by `0, ..., |moved| - 1`. -/
theorem C20_keys_after_renumbering_partial (info : Info) (hs : StoreAligned info)
    (hd : Distinct info.incPaths) :
    ∃ b, renumberKeys info = .ok b ∧ StoreAligned b ∧
      b.incPaths.map (·.1) =
        (info.incPaths.map (·.1)).filter (inRange info.incPaths.length) ++
        ints ((info.incPaths.map (·.1)).filter (fun k => !inRange info.incPaths.length k)).length := by
  obtain ⟨R, P, C, h⟩ := hs.storedAny
  have hkeys : info.incPaths.map (·.1) = R.map (·.1) := by rw [h.incPaths, keys_col]
  have hnod : (R.map (·.1)).Nodup := by rw [← hkeys]; exact hd
  unfold renumberKeys
  rw [keysToRenumber_eq info hd]
  set ks := (info.incPaths.map (·.1)).filter (fun k => !inRange info.incPaths.length k) with hks
  have hlen : ks.length ≤ info.incPaths.length := by
    have := List.length_filter_le (fun k => !inRange info.incPaths.length k) (info.incPaths.map (·.1))
    simpa [hks] using this
  obtain ⟨b, R', h1, h2, _, h4⟩ := renumberFold_keys ks 0 R [] h (by simp) hnod (hd.filter _)
    (by
      intro k hk
      rw [← hkeys]
      exact (List.mem_filter.1 hk).1)
    (by simp)
    (by
      intro k hk
      have := (List.mem_filter.1 hk).2
      simp only [inRange, Bool.not_eq_true', decide_eq_false_iff_not] at this
      omega)
  refine ⟨b, h1, StoredAny.aligned ⟨_, _, _, h2⟩, ?_⟩
  rw [h2.incPaths, keys_col, h4]
  simp only [List.map_nil, List.append_nil, Nat.zero_add]
  congr 1
  rw [← hkeys]
  apply List.filter_congr
  intro k hk
  have : k ∈ ks ↔ inRange info.incPaths.length k = false := by
    rw [hks, List.mem_filter]
    simp only [hk, true_and, Bool.not_eq_true']
  by_cases hr : inRange info.incPaths.length k = true
  · simp [this, hr]
  · simp [this, hr]

/-- C20, when it holds: the keys stay pairwise distinct exactly if no kept key is smaller than the
number of moved ones, and then they are `0, ..., n-1` up to order. -/
theorem C20_distinct_iff_partial (info : Info) (hs : StoreAligned info)
    (hd : Distinct info.incPaths) :
    ∃ b, renumberKeys info = .ok b ∧ b.incPaths.length = info.incPaths.length ∧
      (Distinct b.incPaths ↔ ∀ k ∈ (info.incPaths.map (·.1)).filter (inRange info.incPaths.length),
        (((info.incPaths.map (·.1)).filter (fun k => !inRange info.incPaths.length k)).length : Int)
          ≤ k) ∧
      (Distinct b.incPaths → (b.incPaths.map (·.1)).Perm (ints info.incPaths.length)) := by
  obtain ⟨b, h1, _, h2⟩ := C20_keys_after_renumbering_partial info hs hd
  set kept := (info.incPaths.map (·.1)).filter (inRange info.incPaths.length) with hkept
  set m := ((info.incPaths.map (·.1)).filter (fun k => !inRange info.incPaths.length k)).length with hm
  have hlen : b.incPaths.length = info.incPaths.length := by
    have e1 := congrArg List.length h2
    rw [List.length_map, List.length_append, length_ints] at e1
    have e2 := List.length_eq_length_filter_add (l := info.incPaths.map (·.1))
      (inRange info.incPaths.length)
    rw [List.length_map] at e2
    have e3 : (List.filter (fun x => decide (¬ inRange info.incPaths.length x = true))
        (info.incPaths.map (·.1))).length = m := by
      rw [hm]; congr 2; funext x; cases inRange info.incPaths.length x <;> rfl
    simp only [hkept] at *
    omega
  refine ⟨b, h1, hlen, ?_, ?_⟩
  · unfold Distinct
    rw [h2, List.nodup_append]
    constructor
    · rintro ⟨_, _, hdis⟩ k hk
      by_contra hlt
      have hk0 : 0 ≤ k := by
        have := (List.mem_filter.1 hk).2
        simp only [inRange, decide_eq_true_eq] at this
        exact this.1
      exact hdis k hk k (mem_ints.2 ⟨hk0, by omega⟩) rfl
    · intro h
      refine ⟨hd.filter _, nodup_ints _, ?_⟩
      rintro a ha c hc rfl
      have := h a ha
      have := (mem_ints.1 hc).2
      omega
  · intro hdb
    have hsub : b.incPaths.map (·.1) ⊆ ints info.incPaths.length := by
      intro k hk
      rw [h2, List.mem_append] at hk
      rcases hk with hk | hk
      · have := (List.mem_filter.1 hk).2
        simp only [inRange, decide_eq_true_eq] at this
        exact mem_ints.2 this
      · have := mem_ints.1 hk
        refine mem_ints.2 ⟨this.1, ?_⟩
        have : m ≤ info.incPaths.length := by
          have := List.length_filter_le (fun k => !inRange info.incPaths.length k)
            (info.incPaths.map (·.1))
          rw [List.length_map] at this
          exact this
        omega
    exact (hdb.subperm hsub).perm_of_length_le (by simp [hlen])

/-- C20 fails: two stored solutions with keys 0 and 2 both end up under key 0. -/
theorem C20_violated : ∃ info b : Info, StoreAligned info ∧ Distinct info.incPaths ∧
    renumberKeys info = .ok b ∧ b.incPaths.map (·.1) = [0, 0] := by
  let info : Info :=
    { incPaths := [(0, [(0, 0), (1, 1)]), (2, [(0, 0), (1, 3)])]
      incInt := [(0, []), (2, [])], incOp := [(0, 1), (2, 2)], incInv := [(0, 3), (2, 4)] }
  have hs : StoreAligned info := ⟨⟨rfl, rfl, rfl⟩, ⟨rfl, rfl, rfl⟩, ⟨rfl, rfl, rfl⟩⟩
  have hd : Distinct info.incPaths := by simp [Distinct, info]
  obtain ⟨b, h1, _, h2⟩ := C20_keys_after_renumbering_partial info hs hd
  refine ⟨info, b, hs, hd, h1, h2.trans ?_⟩
  decide

/-! ## C21: eliminating offspring -/

theorem deleteKeys_filter (ks : List Int) {info R P C} (h : Stored info R P C)
    (hR : (R.map (·.1)).Nodup) (hks : ks.Nodup) (hsub : ∀ k ∈ ks, k ∈ R.map (·.1)) :
    ∃ info' P', ks.foldlM deleteKey info = .ok info' ∧
      Stored info' (R.filter (fun e => e.1 ∉ ks)) P' C ∧ SameRest info info' := by
  induction ks generalizing info R P with
  | nil =>
    refine ⟨info, P, rfl, ?_, SameRest.refl _⟩
    have : R.filter (fun e => e.1 ∉ ([] : List Int)) = R := List.filter_eq_self.2 (by simp)
    rw [this]; exact h
  | cons k ks ih =>
    obtain ⟨i1, R1, P1, he, hs, ⟨a, v, b, hab, hb, hR1⟩, _, hr, _⟩ :=
      deleteKey_spec h (hsub k (by simp))
    rw [List.nodup_cons] at hks
    have hR1' : R1 = R.filter (fun e => e.1 ≠ k) := by
      rw [hR1, hab, List.filter_append, List.filter_cons]
      have hb' : b.filter (fun e => e.1 ≠ k) = b := List.filter_eq_self.2 (by
        intro e he; simpa using hb e he)
      have ha' : a.filter (fun e => e.1 ≠ k) = a := by
        apply List.filter_eq_self.2
        intro e he
        simp only [ne_eq, decide_eq_true_eq]
        intro hek
        have hc := List.nodup_iff_count_le_one.1 hR k
        rw [hab, List.map_append, List.map_cons, List.count_append, List.count_cons_self] at hc
        have : 0 < (a.map (·.1)).count k :=
          List.count_pos_iff.2 (List.mem_map.2 ⟨e, he, hek⟩)
        omega
      rw [ha', hb']
      simp
    subst hR1'
    have hkeysF : (R.filter (fun e => e.1 ≠ k)).map (·.1) = (R.map (·.1)).filter (fun x => x ≠ k) := by
      rw [List.filter_map]; rfl
    obtain ⟨i2, P2, he2, hs2, hr2⟩ := ih hs (by rw [hkeysF]; exact hR.filter _) hks.2 (by
      intro x hx
      rw [hkeysF, List.mem_filter]
      refine ⟨hsub x (by simp [hx]), ?_⟩
      simp only [ne_eq, decide_eq_true_eq]
      rintro rfl; exact hks.1 hx)
    refine ⟨i2, P2, by rw [List.foldlM_cons, he, exc_bind_ok, he2], ?_, hr.trans hr2⟩
    rw [List.filter_filter] at hs2
    have : R.filter (fun e => e.1 ∉ k :: ks) =
        R.filter (fun e => decide (e.1 ∉ ks) && decide (e.1 ≠ k)) := by
      apply List.filter_congr
      intro x _
      simp only [List.mem_cons, not_or, ne_eq, Bool.decide_and, Bool.and_comm]
    rw [this]; exact hs2

/-- C21.  With pairwise distinct keys, eliminating the offspring of the candidate keeps exactly the
stored solutions (path, interventions, costs) whose path does not begin with the candidate path, up
to order; the complete plan and the candidate are untouched. -/
theorem C21_exactly_offspring_removed (info : Info) (hs : StoreAligned info)
    (hd : Distinct info.incPaths)
    (hk : ∀ kp ∈ info.incPaths, kp.2.map (·.1) = ints kp.2.length)
    (hc : info.candPath.map (·.1) = ints info.candPath.length) :
    ∃ b, eliminateOffspring info = .ok b ∧
      (planRows b.incumbent).Perm
        ((planRows info.incumbent).filter (fun r => ¬ info.candPath <+: r.1)) ∧
      b.complete = info.complete ∧ b.candPath = info.candPath ∧ b.candInt = info.candInt := by
  obtain ⟨R, P, C, h⟩ := hs.storedAny
  have hkeys : info.incPaths.map (·.1) = R.map (·.1) := by rw [h.incPaths, keys_col]
  have hR : (R.map (·.1)).Nodup := by rw [← hkeys]; exact hd
  have hoff : offspringKeys info = (R.filter (fun e => pathContains e.2.path info.candPath)).map (·.1) := by
    unfold offspringKeys
    rw [h.incPaths]
    unfold col
    rw [List.filter_map, List.map_map]
    rfl
  have hsub : (offspringKeys info).Sublist (R.map (·.1)) := by
    rw [hoff]; exact List.filter_sublist.map _
  obtain ⟨i1, P1, he1, hs1, hr1⟩ := deleteKeys_filter (offspringKeys info) h hR (hsub.nodup hR)
    (fun k hk => hsub.subset hk)
  obtain ⟨i2, R2, he2, hs2, hR2, hr2, _⟩ := renumberKeys_spec hs1
  have hfil : R.filter (fun e => e.1 ∉ offspringKeys info) =
      R.filter (fun e => ¬ info.candPath <+: e.2.path) := by
    apply List.filter_congr
    intro e he
    have hpc : pathContains e.2.path info.candPath = true ↔ info.candPath <+: e.2.path := by
      apply pathContains_iff _ hc
      exact hk (e.1, e.2.path) (by rw [h.incPaths]; exact List.mem_map.2 ⟨e, he, rfl⟩)
    have hmem : e.1 ∈ offspringKeys info ↔ pathContains e.2.path info.candPath = true := by
      rw [hoff]
      constructor
      · intro hm
        obtain ⟨x, hx, hxe⟩ := List.mem_map.1 hm
        obtain ⟨hxR, hxp⟩ := List.mem_filter.1 hx
        have : x = e := by
          have h1 := dictGet?_of_mem hR (k := x.1) (v := x.2) hxR
          have h2 := dictGet?_of_mem hR (k := e.1) (v := e.2) he
          rw [hxe, h2] at h1
          exact Prod.ext hxe (Option.some.inj h1).symm
        rw [← this]; exact hxp
      · intro hp
        exact List.mem_map.2 ⟨e, List.mem_filter.2 ⟨he, hp⟩, rfl⟩
    simp only [hmem, hpc]
  have hperm : ∀ b : Info, b.incumbent = i2.incumbent → (planRows b.incumbent).Perm
      ((planRows info.incumbent).filter (fun r => ¬ info.candPath <+: r.1)) := by
    intro b hb
    rw [hb, hs2.inc, h.inc, planRows_planOf, planRows_planOf, List.filter_map]
    have e1 : ∀ X : List (Int × Row), X.map (fun e => (e.2.path, e.2.sol, e.2.inv, e.2.op)) =
        (X.map (·.2)).map (fun r : Row => (r.path, r.sol, r.inv, r.op)) := by
      intro X; rw [List.map_map]; rfl
    rw [e1, e1]
    apply List.Perm.map
    refine hR2.trans ?_
    rw [hfil]
    exact List.Perm.refl _
  unfold eliminateOffspring
  rw [he1, exc_bind_ok, he2, exc_bind_ok]
  have hr := hr1.trans hr2
  have hcomp : i2.complete = info.complete := by rw [hs2.comp, h.comp]
  split
  · exact ⟨_, rfl, hperm _ rfl, hcomp, hr.candPath, hr.candInt⟩
  · exact ⟨_, rfl, hperm _ rfl, hcomp, hr.candPath, hr.candInt⟩

/-- A state with three stored solutions, two of them below the candidate 0 - 1. -/
example : ∃ info : Info, StoreAligned info ∧ Distinct info.incPaths ∧
    (∀ kp ∈ info.incPaths, kp.2.map (·.1) = ints kp.2.length) ∧
    info.candPath.map (·.1) = ints info.candPath.length ∧ info.incPaths.length = 3 ∧
    ((planRows info.incumbent).filter (fun r => ¬ info.candPath <+: r.1)).length = 1 := by
  refine ⟨{ candPath := [(0, 0), (1, 1)],
            incPaths := [(0, [(0, 0), (1, 1), (2, 3)]), (1, [(0, 0), (1, 2)]), (2, [(0, 0), (1, 1), (2, 4)])],
            incInt := [(0, []), (1, []), (2, [])], incOp := [(0, 0), (1, 0), (2, 0)],
            incInv := [(0, 0), (1, 0), (2, 0)] },
    ⟨⟨rfl, rfl, rfl⟩, ⟨rfl, rfl, rfl⟩, ⟨rfl, rfl, rfl⟩⟩, by simp [Distinct], by decide, rfl, rfl,
    by decide +kernel⟩

/-- C21 needs distinct keys (which C20 does not guarantee): with key 0 used twice the wrong solution
is deleted. -/
theorem C21_needs_distinct_keys : ∃ info b : Info, StoreAligned info ∧
    info.candPath = [(0, 0), (1, 1)] ∧
    info.incPaths.map (·.2) = [[(0, 0), (1, 1), (2, 3)], [(0, 0), (1, 2), (2, 4)]] ∧
    eliminateOffspring info = .ok b ∧
    b.incPaths.map (·.2) = [[(0, 0), (1, 1), (2, 3)]] := by
  let info : Info :=
    { candPath := [(0, 0), (1, 1)],
      incPaths := [(0, [(0, 0), (1, 1), (2, 3)]), (0, [(0, 0), (1, 2), (2, 4)])],
      incInt := [(0, []), (0, [])], incOp := [(0, 0), (0, 0)], incInv := [(0, 0), (0, 0)] }
  let b : Info := { info with
      incPaths := [(0, [(0, 0), (1, 1), (2, 3)])],
      incInt := [(0, [])], incOp := [(0, 0)], incInv := [(0, 0)] }
  exact ⟨info, b, ⟨⟨rfl, rfl, rfl⟩, ⟨rfl, rfl, rfl⟩, ⟨rfl, rfl, rfl⟩⟩, rfl, rfl, by decide +kernel, rfl⟩

end Pyensys
