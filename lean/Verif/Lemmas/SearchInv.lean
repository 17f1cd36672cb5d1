import Verif.Lemmas.SearchSolve

/-! # Invariants of the stored plans along a search -/

namespace Pyensys

/-! ### paths -/

theorem path_itemMem_iff (p : Path) (e : Int × Nat) : ADC.itemMem p e = true ↔ e ∈ p := by
  unfold ADC.itemMem
  rw [List.any_eq_true]
  constructor
  · rintro ⟨x, hx, h⟩
    simp only [Bool.and_eq_true, decide_eq_true_eq, beq_iff_eq] at h
    have : x = e := Prod.ext h.1 h.2
    exact this ▸ hx
  · intro h; exact ⟨e, h, by simp⟩

theorem pathContains_iff_subset (p q : Path) : pathContains p q = true ↔ ∀ e ∈ q, e ∈ p := by
  unfold pathContains ADC.compareLists
  rw [List.all_eq_true]
  simp only [path_itemMem_iff]

theorem path_get {p : Path} (hp : p.map (·.1) = ints p.length) {i : Nat} (hi : i < p.length) :
    p[i].1 = (i : Int) := by
  have h1 : (p.map (·.1))[i]? = some p[i].1 := by simp [hi]
  rw [hp] at h1
  simp [ints, hi] at h1
  exact h1.symm

/-- containment of paths whose keys are positions is the prefix relation -/
theorem pathContains_iff {p q : Path} (hp : p.map (·.1) = ints p.length)
    (hq : q.map (·.1) = ints q.length) : pathContains p q = true ↔ q <+: p := by
  rw [pathContains_iff_subset]
  constructor
  · intro h
    have key : ∀ i (hi : i < q.length), ∃ hj : i < p.length, p[i] = q[i] := by
      intro i hi
      have hm := h _ (List.getElem_mem hi)
      obtain ⟨j, hj, hje⟩ := List.getElem_of_mem hm
      have h1 := path_get hp hj
      have h2 := path_get hq hi
      rw [hje, h2] at h1
      have : i = j := by omega
      subst this
      exact ⟨hj, hje⟩
    rw [List.prefix_iff_eq_take]
    apply List.ext_getElem
    · rw [List.length_take]
      by_cases hz : q.length = 0
      · omega
      · obtain ⟨hj, _⟩ := key (q.length - 1) (by omega)
        omega
    · intro i h1 h2
      obtain ⟨hj, he⟩ := key i h1
      rw [List.getElem_take, he]
  · intro h e he
    exact h.subset he

/-- a root-to-leaf path that is a prefix of a path of the graph is that path -/
theorem prefix_leaf_eq {cfg : Cfg} {p q : Path} (hpre : q <+: p)
    (hp : RootPath cfg (p.map (·.2))) (hl : ∃ m, (q.map (·.2)).getLast? = some m ∧ cfg.nbr m = []) :
    q = p := by
  obtain ⟨t, rfl⟩ := hpre
  cases t with
  | nil => simp
  | cons x t =>
    exfalso
    obtain ⟨m, hm, hn⟩ := hl
    obtain ⟨_, hc⟩ := hp
    rw [List.map_append, List.isChain_append] at hc
    have := hc.2.2 m (by simpa using hm) x.2 (by simp)
    rw [hn] at this
    cases this

/-! ### where stored rows come from -/

/-- A stored row records some complete candidate. -/
def RowFrom (cfg : Cfg) (row : Row) : Prop :=
  ∃ a, LeafCand cfg a ∧ row.path = a.candPath ∧ row.sol = builtSol a.candTime a.candInt ∧
    operationCost cfg a.candOp = .ok row.op ∧
    (investmentCost cfg a.candInt = .ok row.inv ∨ investmentCost cfg row.sol = .ok row.inv)

def Covers (cfg : Cfg) (C : List (Int × Row)) : Prop :=
  ∀ n ∈ cfg.nodes, ∃ e ∈ C, n ∈ e.2.path.map (·.2)

/-- invariant of the stored plans: all rows have property `Q` -/
structure GoodStore (cfg : Cfg) (Q : Row → Prop) (info : Info) (R P C : List (Int × Row)) :
    Prop where
  stored : Stored info R P C
  rowsR : ∀ e ∈ R, Q e.2
  rowsP : ∀ e ∈ P, Q e.2
  rowsC : ∀ e ∈ C, Q e.2
  covers : C = [] ∨ Covers cfg C

theorem remaining_covers {cfg info R P C} (h : Stored info R P C) (hr : remainingNodes cfg info = []) :
    Covers cfg R := by
  intro n hn
  by_contra hno
  have hno' : ∀ e ∈ R, n ∉ e.2.path.map (·.2) := by
    intro e he hm; exact hno ⟨e, he, hm⟩
  have inner : ∀ (p : Path) (r : List Nat), n ∉ p.map (·.2) → n ∈ r →
      n ∈ p.foldl (fun r pn => if r.contains pn.2 then r.erase pn.2 else r) r := by
    intro p
    induction p with
    | nil => intro r _ h; exact h
    | cons x p ih =>
      intro r hx hr
      simp only [List.map_cons, List.mem_cons, not_or] at hx
      rw [List.foldl_cons]
      apply ih _ hx.2
      split
      · exact (List.mem_erase_of_ne hx.1).2 hr
      · exact hr
  have outer : ∀ (L : List (Int × Path)) (r : List Nat), (∀ kp ∈ L, n ∉ kp.2.map (·.2)) → n ∈ r →
      n ∈ L.foldl (fun r kp => kp.2.foldl (fun r pn =>
        if r.contains pn.2 then r.erase pn.2 else r) r) r := by
    intro L
    induction L with
    | nil => intro r _ h; exact h
    | cons x L ih =>
      intro r hx hr
      rw [List.foldl_cons]
      exact ih _ (fun kp hkp => hx kp (by simp [hkp])) (inner _ _ (hx x (by simp)) hr)
  have := outer info.incPaths cfg.nodes (by
    intro kp hkp
    rw [h.incPaths] at hkp
    obtain ⟨e, he, rfl⟩ := List.mem_map.1 hkp
    exact hno' e he) hn
  unfold remainingNodes at hr
  rw [hr] at this
  cases this

theorem mem_listSet {R : List (Int × Row)} {k : Int} {r : Row} {e : Int × Row}
    (h : e ∈ listSet R k r) : e ∈ R ∨ e.2 = r := by
  unfold listSet at h
  obtain ⟨x, hx, rfl⟩ := List.mem_map.1 h
  split
  · exact Or.inr rfl
  · exact Or.inl hx

theorem perm_rows_forall {R R0 : List (Int × Row)} {Q : Row → Prop}
    (hp : (R.map (·.2)).Perm (R0.map (·.2))) (h : ∀ e ∈ R0, Q e.2) : ∀ e ∈ R, Q e.2 := by
  intro e he
  have : e.2 ∈ R0.map (·.2) := hp.subset (List.mem_map.2 ⟨e, he, rfl⟩)
  obtain ⟨x, hx, hxe⟩ := List.mem_map.1 this
  rw [← hxe]; exact h x hx

/-- how one atomic change acts on the rows -/
theorem Prim.rows {cfg Q a b R P C} (hg : GoodCfg cfg) (hQ : ∀ r, RowFrom cfg r → Q r)
    (h : Prim cfg a b) (hs : GoodStore cfg Q a R P C) :
    ∃ R' P' C', GoodStore cfg Q b R' P' C' ∧
      (C' = C ∨ (C' = R ∧ Covers cfg R ∧ (C = [] ∨ totalCost R < totalCost C))) := by
  cases h with
  | frame h1 h2 h3 =>
    exact ⟨R, P, C, ⟨⟨by rw [h1]; exact hs.stored.inc, by rw [h2]; exact hs.stored.part,
      by rw [h3]; exact hs.stored.comp⟩, hs.rowsR, hs.rowsP, hs.rowsC, hs.covers⟩, Or.inl rfl⟩
  | append hl hk he =>
    obtain ⟨i, row, h1, h2, h3, h4, h5, h6, _⟩ := appendCandidate_spec hg hl hs.stored
      a.incPaths.length
    rw [he] at h1; cases h1
    refine ⟨_, P, C, ⟨h2, ?_, hs.rowsP, hs.rowsC, hs.covers⟩, Or.inl rfl⟩
    intro e hm
    rcases List.mem_append.1 hm with hm | hm
    · exact hs.rowsR e hm
    · rw [List.mem_singleton.1 hm]
      exact hQ _ ⟨a, hl, h3, h4, h6, Or.inl h5⟩
  | replace k hl hk he =>
    obtain ⟨row0, hm, _⟩ := storedKey_some hs.stored hk
    obtain ⟨i, R', old, row, h1, h2, h3, h4, h5, h6, h7, h8, _⟩ :=
      replaceIfBetter_spec hg hl hs.stored (List.mem_map.2 ⟨_, hm, rfl⟩)
    rw [he] at h1; cases h1
    refine ⟨R', P, C, ⟨h2, ?_, hs.rowsP, hs.rowsC, hs.covers⟩, Or.inl rfl⟩
    rcases h8 with ⟨rfl, _⟩ | ⟨rfl, _⟩
    · intro e hm
      rcases mem_listSet hm with hm | hm
      · exact hs.rowsR e hm
      · rw [hm]; exact hQ _ ⟨a, hl, h4, h5, h7, Or.inr h6⟩
    · exact hs.rowsR
  | tree hr he =>
    obtain ⟨i, C', h1, h2, h3, _⟩ := replaceTree_spec hs.stored
    rw [he] at h1; cases h1
    rcases h3 with ⟨rfl, h3⟩ | ⟨rfl, _, _⟩
    · exact ⟨_, P, _, ⟨h2, hs.rowsR, hs.rowsP, hs.rowsR, Or.inr (remaining_covers hs.stored hr)⟩,
        Or.inr ⟨rfl, remaining_covers hs.stored hr, h3⟩⟩
    · exact ⟨R, P, _, ⟨h2, hs.rowsR, hs.rowsP, hs.rowsC, hs.covers⟩, Or.inl rfl⟩
  | elim hc he =>
    obtain ⟨i, R', P', h1, h2, ⟨R0, h3, h4⟩, h5, _⟩ := eliminateOffspring_spec hs.stored
    rw [he] at h1; cases h1
    exact ⟨R', P', C, ⟨h2, perm_rows_forall h4 (fun e he => hs.rowsR e (h3.subset he)),
      fun e he => hs.rowsP e (h5.subset he), hs.rowsC, hs.covers⟩, Or.inl rfl⟩
  | storeP he =>
    obtain ⟨i, P', h1, h2, h3, _⟩ := storePartial_spec hs.stored
    rw [he] at h1; cases h1
    refine ⟨R, P', C, ⟨h2, hs.rowsR, ?_, hs.rowsC, hs.covers⟩, Or.inl rfl⟩
    rcases h3 with rfl | rfl
    · exact hs.rowsP
    · exact hs.rowsR
  | restoreP he =>
    obtain ⟨i, R', h1, h2, h3, _⟩ := restorePartial_spec hs.stored
    rw [he] at h1; cases h1
    refine ⟨R', P, C, ⟨h2, ?_, hs.rowsP, hs.rowsC, hs.covers⟩, Or.inl rfl⟩
    rcases h3 with rfl | ⟨_, rfl⟩
    · exact hs.rowsR
    · exact hs.rowsP

/-- Invariant along a whole history: rows come from candidates, the complete plan covers all nodes and
is only ever replaced by a strictly cheaper one. -/
theorem Evo.rows {cfg Q a b R P C} (hg : GoodCfg cfg) (hQ : ∀ r, RowFrom cfg r → Q r)
    (h : Evo cfg a b) (hs : GoodStore cfg Q a R P C) :
    ∃ R' P' C', GoodStore cfg Q b R' P' C' ∧
      (cfg.nodes ≠ [] → C ≠ [] → C' ≠ [] ∧ (C' = C ∨ totalCost C' < totalCost C)) := by
  induction h with
  | refl => exact ⟨R, P, C, hs, fun _ h => ⟨h, Or.inl rfl⟩⟩
  | @tail b c _ hp ih =>
    obtain ⟨R1, P1, C1, h1, h2⟩ := ih
    obtain ⟨R2, P2, C2, h3, h4⟩ := hp.rows hg hQ h1
    refine ⟨R2, P2, C2, h3, ?_⟩
    intro hn hC
    obtain ⟨hne, hlt⟩ := h2 hn hC
    rcases h4 with rfl | ⟨rfl, h4, h5⟩
    · exact ⟨hne, hlt⟩
    · rcases h5 with h5 | h5
      · exact absurd h5 hne
      · refine ⟨?_, Or.inr ?_⟩
        · rintro rfl
          obtain ⟨n, hn⟩ := List.exists_mem_of_ne_nil _ hn
          obtain ⟨e, he, _⟩ := h4 n hn
          cases he
        · rcases hlt with rfl | hlt
          · exact h5
          · exact h5.trans hlt

/-! ### every moment of the run -/

theorem WellFormed.good {cfg fuel} (h : WellFormed cfg fuel) : GoodCfg cfg := ⟨h.pool, h.rate⟩

/-- what is known whenever `solve` is entered -/
structure Entry (cfg : Cfg) (n : Nat) (b : Info) : Prop where
  at_ : AtNode cfg b
  from_ : From cfg {} b
  height : ∃ h, HeightLe cfg h b.node ∧ h < n ∧ b.candPath.length + h < cfg.years.length

theorem Visited.entry {cfg fuel n b} (hw : WellFormed cfg fuel) (h : Visited cfg fuel n b) :
    Entry cfg n b := by
  induction h with
  | start =>
    obtain ⟨h, h1, h2, h3⟩ := hw.height
    exact ⟨atNode_start, ⟨stored_start, Evo.refl _⟩, h, h1, h2, by simpa using h3⟩
  | @call n a b _ hc ih =>
    obtain ⟨hat, hf, h, hh, hn, hy⟩ := ih
    unfold CallsAt at hc
    by_contra hno
    have hok : SlvOK cfg {} (solveBody cfg
        (fun i => if i = b then .error .recursion else solve cfg n i)) h := by
      apply solveBody_spec hw.good
      rintro h' rfl
      intro info i1 i2 i3 i4
      have hne : info ≠ b := by
        rintro rfl
        exact hno ⟨i1, i4, h', i2, by omega, i3⟩
      simp only [hne, if_false]
      exact solve_spec hw.good h' n (by omega) info i1 i2 i3 i4
    obtain ⟨f, c, h1, _⟩ := hok a hat hh hy hf
    rw [h1] at hc
    cases hc

theorem Visited.exit {cfg fuel n a f b} (hw : WellFormed cfg fuel) (h : Visited cfg fuel n a)
    (hs : solve cfg n a = .ok (f, b)) : SolvePost cfg a b ∧ From cfg {} b := by
  obtain ⟨hat, hf, h, hh, hn, hy⟩ := h.entry hw
  obtain ⟨f', b', h1, h2⟩ := solve_spec hw.good h n hn a hat hh hy hf
  rw [hs] at h1; cases h1
  exact ⟨h2, hf.step h2.evo⟩

theorem Moment.from_ {cfg fuel b} (hw : WellFormed cfg fuel) (h : Moment cfg fuel b) :
    From cfg {} b := by
  rcases h with ⟨n, h⟩ | ⟨n, a, f, h, hs⟩
  · exact (h.entry hw).from_
  · exact (h.exit hw hs).2

theorem Moment.cand {cfg fuel b} (hw : WellFormed cfg fuel) (h : Moment cfg fuel b) :
    CandOK cfg b := by
  rcases h with ⟨n, h⟩ | ⟨n, a, f, h, hs⟩
  · exact (h.entry hw).at_.cand
  · obtain ⟨d, hd⟩ := (h.exit hw hs).1.same
    exact (h.entry hw).at_.cand.congr hd

/-- a property of rows that holds of every row made from a complete candidate holds of all stored
rows at every moment -/
theorem Moment.rows {cfg fuel b} {Q : Row → Prop} (hw : WellFormed cfg fuel) (h : Moment cfg fuel b)
    (hQ : ∀ r, RowFrom cfg r → Q r) : ∃ R P C, GoodStore cfg Q b R P C := by
  have hs : GoodStore cfg Q ({} : Info) [] [] [] :=
    ⟨⟨rfl, rfl, rfl⟩, by simp, by simp, by simp, Or.inl rfl⟩
  obtain ⟨R, P, C, h1, _⟩ := (h.from_ hw).evo.rows hw.good hQ hs
  exact ⟨R, P, C, h1⟩

end Pyensys
