import Verif.Props.ReduceGens

/-!
# Reduction of a network to a voltage level: lists of branches (C129), examples and violations
-/

namespace Pyensys

theorem artLines_buses (net : TpNet) (S : Supernode) (num first : Int) :
    (artLines net S num first).map (·.buses) = (S.coupling.zip S.art).map (fun c => [oldBusNo net c.1, num]) := by
  unfold artLines
  rw [List.map_map]
  conv_rhs => rw [← List.zipIdx_map_fst 0 (S.coupling.zip S.art)]
  rw [List.map_map]
  rfl

theorem addSupers_inter (net : TpNet) : ∀ (ps : List (Supernode × SuperEq)) (st : AddSt),
    st.newLines.map (·.buses) = st.inter.map (fun t => [t.2.1, t.2.2]) →
    (ps.foldl (addSuper net) st).newLines.map (·.buses) = (ps.foldl (addSuper net) st).inter.map (fun t => [t.2.1, t.2.2]) := by
  intro ps
  induction ps with
  | nil => intro st h; exact h
  | cons p ps ih =>
    intro st h
    rw [List.foldl_cons]
    apply ih
    unfold addSuper
    split
    · simp only [List.map_append, h, artLines_buses, List.map_map]
      rfl
    · cases p.1.coupling <;> exact h

theorem addSupers_inter_els (net : TpNet) : ∀ (ps : List (Supernode × SuperEq)) (st : AddSt) (t : (Series × Nat) × Int × Int), t ∈ (ps.foldl (addSuper net) st).inter →
    t ∈ st.inter ∨ ∃ p ∈ ps, t.1 ∈ p.1.art := by
  intro ps
  induction ps with
  | nil => intro st t h; exact Or.inl h
  | cons p ps ih =>
    intro st t h
    rw [List.foldl_cons] at h
    rcases ih _ t h with h | ⟨q, hq, h⟩
    · unfold addSuper at h
      split at h
      · rcases List.mem_append.1 h with h | h
        · exact Or.inl h
        · right
          obtain ⟨c, hc, rfl⟩ := List.mem_map.1 h
          exact ⟨p, List.mem_cons_self, (List.of_mem_zip hc).2⟩
      · left
        cases hcp : p.1.coupling with
        | nil => rw [hcp] at h; exact h
        | cons c cs => rw [hcp] at h; exact h
    · exact Or.inr ⟨q, List.mem_cons_of_mem _ hq, h⟩

theorem pair_of_two {l : List Int} {a b : Int} (hl : l.length = 2) (ha : pyGet l 0 = .ok a) (hb : pyGet l 1 = .ok b) : l = [a, b] := by
  match l, hl with
  | [x, y], _ =>
    have h1 : x = a := by simpa [pyGet] using ha
    have h2 : y = b := by simpa [pyGet] using hb
    rw [h1, h2]

/-- **C129** (partial: the original positions in the list of preserved branches are wrong, see the violation).  After a successful reduction with at least one supernode: the list of preserved
branches has one entry per line of the reduced network, in its order, with the buses of that line; the entries of the list of interconnections name, by
position and buses, an element of the original network; the list of removed branches holds exactly the buses of the elements with an end below the
level. -/
theorem C129_branches_partial (limit : Nat) (net : TpNet) (vol : Rat) (tw : Option Rat) (initBus initLine : Option Int) (r : RdResult) (hok : NetOk net)
    (h : reduceNetwork limit net vol tw initBus initLine = .ok r) (hne : r.supers ≠ []) :
    r.preserved.map (·.newPos) = List.range (r.net.series .line).length ∧
    (∀ m ∈ r.preserved, ∃ l, (r.net.series .line)[m.newPos]? = some l ∧ l.buses = m.newBus) ∧
    (∀ m ∈ r.inter, m ∈ r.preserved ∧ ∃ s l, (net.series s)[m.oldPos]? = some l ∧ l.buses = m.oldBus ∧ ∃ x ∈ l.busPos, (netView net vol tw).low x = true) ∧
    (∀ bs, bs ∈ r.removed ↔ ∃ s, ∃ l ∈ net.series s, l.buses = bs ∧ ∃ x ∈ l.busPos, (netView net vol tw).low x = true) := by
  obtain ⟨_, h1, h2⟩ := reduce_parts h
  have hs := findSupernodes_of_ok (netView_ok hok vol tw) h1
  rcases h2 with ⟨h0, _⟩ | ⟨h0, hl, qs, h3, h4, h5, ⟨pres, h6, h7⟩, h8⟩
  · exact absurd h0 hne
  · have hF := (mapM_ok_iff _ _ _).1 h3
    have two : ∀ s, ∀ l ∈ net.series s, l.buses.length = 2 := by
      intro s l hl
      obtain ⟨_, _, _, _, _, _, _, _, hb⟩ := hok.ends s l hl
      rcases hb with hb | hb <;> rw [hb] <;> rfl
    -- the lines of the reduced network
    have hbuses : (r.net.series .line).map (·.buses) = ((deleteSupers net r.supers).series .line).map (·.buses) ++
        (addedSt net r.supers qs initBus initLine).inter.map (fun t => [t.2.1, t.2.2]) := by
      rw [h4]
      unfold addedNet
      rw [updateAll_series _ _ _ (fun _ _ => rfl)]
      unfold addedRaw
      simp only [List.map_append]
      congr 1
      unfold addedSt
      exact addSupers_inter net _ _ rfl
    obtain ⟨rest, hrest⟩ : ∃ rest, rest = (deleteSupers net r.supers).series .line := ⟨_, rfl⟩
    obtain ⟨inter, hinter⟩ : ∃ inter, inter = (addedSt net r.supers qs initBus initLine).inter := ⟨_, rfl⟩
    rw [← hrest] at hbuses h5 h6
    rw [← hinter] at hbuses h5
    have hlen : (r.net.series .line).length = rest.length + inter.length := by
      have := congrArg List.length hbuses
      simpa using this
    have hrest2 : ∀ l ∈ rest, l.buses.length = 2 := by
      intro l hl
      have hm : l.buses ∈ rest.map (·.buses) := List.mem_map_of_mem hl
      rw [hrest, deleteSupers_series net r.supers .line (fun l => l.buses) (fun _ _ => rfl)] at hm
      obtain ⟨l0, hl0, hl0b⟩ := List.mem_map.1 hm
      obtain ⟨i, hi, _⟩ := mem_deleteAt.1 hl0
      rw [← hl0b]
      exact two .line l0 (List.mem_of_getElem? hi)
    -- preserved entries
    have hP := (mapM_ok_iff _ _ _).1 h6
    have hpres : List.Forall₂ (fun (p : TpLine × Nat) (m : BranchMap) => m.newPos = p.2 ∧ m.newBus = p.1.buses) rest.zipIdx pres := by
      have hmem : ∀ p ∈ rest.zipIdx, p.1 ∈ rest := by
        intro p hp
        exact (List.mem_zipIdx hp).2.2 ▸ List.getElem_mem _
      clear h6 h7
      generalize rest.zipIdx = zs at hP hmem
      induction hP with
      | nil => exact List.Forall₂.nil
      | cons hp _ ih =>
        refine List.Forall₂.cons ?_ (ih (fun p h => hmem p (List.mem_cons_of_mem _ h)))
        unfold preservedOf at hp
        obtain ⟨a, ha, hp⟩ := except_bind_ok.1 hp
        obtain ⟨b, hb, hp⟩ := except_bind_ok.1 hp
        cases hp
        exact ⟨rfl, (pair_of_two (hrest2 _ (hmem _ List.mem_cons_self)) ha hb).symm⟩
    have hpos : pres.map (·.newPos) = List.range rest.length := by
      have : pres.map (·.newPos) = rest.zipIdx.map (·.2) := by
        clear h6 hP h7
        generalize rest.zipIdx = zs at hpres
        induction hpres with
        | nil => rfl
        | cons hp _ ih => rw [List.map_cons, List.map_cons, ih, hp.1]
      rw [this, List.zipIdx_map_snd, List.range_eq_range']
    have hget : ∀ (i : Nat) (bs : List Int), ((r.net.series .line).map (·.buses))[i]? = some bs → ∃ l, (r.net.series .line)[i]? = some l ∧ l.buses = bs := by
      intro i bs hi
      rw [List.getElem?_map] at hi
      cases hb : (r.net.series .line)[i]? with
      | none => rw [hb] at hi; cases hi
      | some l =>
        rw [hb] at hi
        exact ⟨l, rfl, by simpa using hi⟩
    refine ⟨?_, ?_, ?_, ?_⟩
    · rw [h7, List.map_append, hpos, hlen, List.range_add]
      congr 1
      rw [h5, List.map_map]
      have : inter.zipIdx.map Prod.snd = List.range inter.length := by rw [List.zipIdx_map_snd, List.range_eq_range']
      rw [← this, List.map_map]
      rfl
    · intro m hm
      apply hget
      rw [hbuses]
      rw [h7] at hm
      rcases List.mem_append.1 hm with hm | hm
      · obtain ⟨i, hi, rfl⟩ := List.mem_iff_getElem.1 hm
        have hi2 : i < rest.zipIdx.length := by rw [hpres.length_eq]; exact hi
        obtain ⟨e1, e2⟩ := (List.forall₂_iff_get.1 hpres).2 i hi2 hi
        simp only [List.get_eq_getElem] at e1 e2
        rw [List.getElem_zipIdx] at e1 e2
        simp only [Nat.zero_add] at e1 e2
        rw [List.length_zipIdx] at hi2
        rw [e1, List.getElem?_append_left (by simpa using hi2), List.getElem?_map, List.getElem?_eq_getElem hi2, e2]
        rfl
      · rw [h5] at hm
        obtain ⟨p, hp, rfl⟩ := List.mem_map.1 hm
        rw [List.mem_zipIdx_iff_getElem?] at hp
        simp only
        rw [List.getElem?_append_right (by simp), List.length_map, Nat.add_sub_cancel_left, List.getElem?_map, hp]
        rfl
    · intro m hm
      refine ⟨by rw [h7]; exact List.mem_append_right _ hm, ?_⟩
      rw [h5] at hm
      obtain ⟨p, hp, rfl⟩ := List.mem_map.1 hm
      have hp1 : p.1 ∈ inter := (List.mem_zipIdx hp).2.2 ▸ List.getElem_mem _
      rw [hinter] at hp1
      unfold addedSt at hp1
      rcases addSupers_inter_els net _ _ _ hp1 with hh | ⟨q, hq, hh⟩
      · simp at hh
      · have hS := (List.of_mem_zip hq).1
        rw [hs.art _ hS] at hh
        obtain ⟨x, hx, hxS⟩ := (hs.elMem _ hS _).1 (List.mem_filter.1 hh).1
        have hxl := ((hs.mem x).1 ⟨_, hS, hxS⟩).2
        simp only [netView] at hx
        cases hg : (net.series p.1.1.1)[p.1.1.2]? with
        | none => rw [hg] at hx; simp at hx
        | some l =>
          rw [hg] at hx
          refine ⟨p.1.1.1, l, hg, ?_, x, hx, hxl⟩
          simp [oldEnds, hg]
    · have hR := (mapM_ok_iff _ _ _).1 h8
      have hmemR : ∀ bs, bs ∈ r.removed ↔ ∃ e : Series × Nat, e.2 ∈ superEls r.supers e.1 ∧ removedOf net e = .ok bs := by
        intro bs
        have hall : ∀ e : Series × Nat, e ∈ (superEls r.supers .line).map (fun (k : Nat) => (Series.line, k)) ++ (superEls r.supers .trafo).map (fun (k : Nat) => (Series.trafo, k)) ↔
            e.2 ∈ superEls r.supers e.1 := by
          intro e
          obtain ⟨s, k⟩ := e
          cases s <;> simp
        constructor
        · intro hb
          obtain ⟨i, hi, rfl⟩ := List.mem_iff_getElem.1 hb
          have hi2 : i < ((superEls r.supers .line).map (fun (k : Nat) => (Series.line, k)) ++ (superEls r.supers .trafo).map (fun (k : Nat) => (Series.trafo, k))).length := by
            rw [hR.length_eq]; exact hi
          exact ⟨_, (hall _).1 (List.getElem_mem hi2), (List.forall₂_iff_get.1 hR).2 i hi2 hi⟩
        · rintro ⟨e, he, hb⟩
          obtain ⟨i, hi, hei⟩ := List.mem_iff_getElem.1 ((hall e).2 he)
          have hi2 : i < r.removed.length := by rw [← hR.length_eq]; exact hi
          have := (List.forall₂_iff_get.1 hR).2 i hi hi2
          simp only [List.get_eq_getElem, hei] at this
          rw [hb] at this
          cases this
          exact List.getElem_mem hi2
      intro bs
      rw [hmemR]
      constructor
      · rintro ⟨⟨s, k⟩, hk, hb⟩
        simp only at hk
        have hlt := superEls_lt hs k hk
        obtain ⟨S, hS, he⟩ := mem_superEls.1 hk
        obtain ⟨x, hx, hxS⟩ := (hs.elMem S hS (s, k)).1 he
        have hxl := ((hs.mem x).1 ⟨_, hS, hxS⟩).2
        simp only [netView, List.getElem?_eq_getElem hlt] at hx
        refine ⟨s, (net.series s)[k], List.getElem_mem hlt, ?_, x, hx, hxl⟩
        unfold removedOf at hb
        obtain ⟨a, ha, hb⟩ := except_bind_ok.1 hb
        obtain ⟨b, hb', hb⟩ := except_bind_ok.1 hb
        cases hb
        simp only [oldEnds, List.getElem?_eq_getElem hlt] at ha hb'
        exact pair_of_two (two s _ (List.getElem_mem hlt)) ha hb'
      · rintro ⟨s, l, hl, hb, x, hx, hxl⟩
        obtain ⟨k, hk, hkl⟩ := List.mem_iff_getElem.1 hl
        have hg : (net.series s)[k]? = some l := by rw [List.getElem?_eq_getElem hk, hkl]
        have hxv : x ∈ (netView net vol tw).ends s k := by
          simp only [netView, hg]
          exact hx
        obtain ⟨S, hS, hxS⟩ := (hs.mem x).2 ⟨ends_lt (netView_ok hok vol tw) hxv, hxl⟩
        refine ⟨(s, k), mem_superEls.2 ⟨S, hS, (hs.elMem S hS (s, k)).2 ⟨x, hxv, hxS⟩⟩, ?_⟩
        have h2l := two s l hl
        unfold removedOf
        simp only [oldEnds, hg]
        rw [← hb]
        match l.buses, h2l with
        | [a, b], _ => rfl

/-! ## examples -/

/-- a test for the conditions on networks -/
def netCheck (net : TpNet) : Bool :=
  decide (net.buses.map (·.number)).Nodup &&
  [Series.line, Series.trafo].all (fun s =>
    (net.series s).all (fun l => match l.busPos with
      | [x, y] => match net.buses[x]?, net.buses[y]? with
        | some bx, some by' => decide (x ≠ y) && (decide (l.buses = [bx.number, by'.number]) || decide (l.buses = [by'.number, bx.number]))
        | _, _ => false
      | _ => false) &&
    net.buses.zipIdx.all (fun q => (q.1.serPos s).all (fun e => decide (e < (net.series s).length)) &&
      (net.series s).zipIdx.all (fun p => decide (p.2 ∈ q.1.serPos s ↔ q.2 ∈ p.1.busPos))))

theorem netOk_of_check (net : TpNet) (h : netCheck net = true) : NetOk net := by
  unfold netCheck at h
  rw [Bool.and_eq_true, List.all_eq_true] at h
  obtain ⟨h1, h2⟩ := h
  have h2 : ∀ s : Series, _ := fun s => h2 s (by cases s <;> simp)
  simp only [Bool.and_eq_true, List.all_eq_true, decide_eq_true_eq] at h1 h2
  refine ⟨h1, ?_, ?_, ?_⟩
  · intro s l hl
    have h3 := (h2 s).1 l hl
    split at h3
    · rename_i x y hp
      split at h3
      · rename_i bx by' hx hy
        simp only [Bool.and_eq_true, Bool.or_eq_true, decide_eq_true_eq] at h3
        exact ⟨x, y, bx, by', h3.1, hx, hy, hp, h3.2⟩
      · cases h3
    · cases h3
  · intro s e l hl x b hb
    have h3 := (h2 s).2 (b, x) (List.mem_zipIdx_iff_getElem?.2 hb)
    exact h3.2 (l, e) (List.mem_zipIdx_iff_getElem?.2 hl)
  · intro s b hb e he
    obtain ⟨x, hx, hxb⟩ := List.mem_iff_getElem.1 hb
    have h3 := (h2 s).2 (b, x) (List.mem_zipIdx_iff_getElem?.2 (by rw [List.getElem?_eq_getElem hx, hxb]))
    exact h3.1 e he

/-- electrical data -/
def exPar (loss : Rat) : LinePar := ⟨0, 1 / 100, 1 / 10, 100, some loss⟩

/-- a bus with its lines, transformers and conventional generators -/
def exTpBus (number : Int) (volt pd : Rat) (ln : List Int) (lp : List Nat) (tn : List Int) (tp : List Nat) (gn : List Int) (gp : List Nat) : TpBus where
  number := number
  volt := volt
  pd := pd
  qd := pd / 2
  loss := 1
  serNo := fun s => match s with
    | .line => ln
    | .trafo => tn
  serPos := fun s => match s with
    | .line => lp
    | .trafo => tp
  genNo := fun g => match g with
    | .conv => gn
    | _ => []
  genPos := fun g => match g with
    | .conv => gp
    | _ => []

/-- a network with five buses: 10 and 40, 50 below 132 kV, 20 and 30 at 132 kV; bus 10 is joined to 20 and 30 by transformers, 40 and 50 hang at 30; generators at 20, 30 and 50 -/
def exTpNet : TpNet where
  buses := [exTpBus 10 11 5 [] [] [1, 2] [0, 1] [] [], exTpBus 20 132 7 [2] [1] [1] [0] [20] [0], exTpBus 30 132 0 [1, 2] [0, 1] [2] [1] [30] [1],
    exTpBus 40 11 3 [1, 3] [0, 2] [] [] [] [], exTpBus 50 11 2 [3] [2] [] [] [50] [2]]
  series := fun s => match s with
    | .line => [⟨1, [30, 40], [2, 3], 1, exPar 4⟩, ⟨2, [20, 30], [1, 2], 1, exPar 0⟩, ⟨3, [40, 50], [3, 4], 1, exPar 1⟩]
    | .trafo => [⟨1, [20, 10], [0, 1], 1, exPar 2⟩, ⟨2, [30, 10], [0, 2], 1, exPar 3⟩]
  gens := fun g => match g with
    | .conv => [⟨20, 1, 100⟩, ⟨30, 2, 50⟩, ⟨50, 4, 10⟩]
    | _ => []

theorem exTpNet_ok : NetOk exTpNet := netOk_of_check _ (by decide +kernel)

theorem exTpNet_gens : GensOk exTpNet := by
  intro g x hx
  cases g with
  | conv =>
    simp only [exTpNet, List.mem_cons, List.not_mem_nil, or_false] at hx
    rcases hx with rfl | rfl | rfl
    · exact ⟨_, rfl, rfl⟩
    · exact ⟨_, rfl, rfl⟩
    · exact ⟨_, rfl, rfl⟩
  | res => simp [exTpNet] at hx
  | hydro => simp [exTpNet] at hx

/-- a network whose buses below the level come last: the same one without bus 10 and its transformers, with bus 20 and 30 first -/
def exTpNet2 : TpNet where
  buses := [exTpBus 20 132 7 [2] [1] [] [] [20] [0], exTpBus 30 132 0 [1, 2] [0, 1] [] [] [30] [1],
    exTpBus 40 11 3 [1, 3] [0, 2] [] [] [] [], exTpBus 50 11 2 [3] [2] [] [] [50] [2]]
  series := fun s => match s with
    | .line => [⟨1, [30, 40], [1, 2], 1, exPar 4⟩, ⟨2, [20, 30], [0, 1], 1, exPar 0⟩, ⟨3, [40, 50], [2, 3], 1, exPar 1⟩]
    | .trafo => []
  gens := fun g => match g with
    | .conv => [⟨20, 0, 100⟩, ⟨30, 1, 50⟩, ⟨50, 3, 10⟩]
    | _ => []

/-- a test of a result -/
def okAnd {α : Type} (e : Except PyErr α) (p : α → Bool) : Bool := match e with
  | .ok a => p a
  | .error _ => false

theorem okAnd_iff {α : Type} {e : Except PyErr α} {p : α → Bool} : okAnd e p = true ↔ ∃ a, e = .ok a ∧ p a = true := by
  cases e with
  | ok a => simp [okAnd]
  | error x => simp [okAnd]

/-- the conditions of C122 to C129 are met by a network with two supernodes, one with two coupling elements and one with two buses and one coupling element -/
example : ∃ r, reduceNetwork 10 exTpNet 132 none none none = .ok r ∧ r.supers.map (·.bus) = [[0], [3, 4]] ∧ r.supers.map (·.coupling) = [[1, 2], [2]] ∧
    r.net.buses.map (·.number) = [20, 30, 100] ∧ r.net.buses.map (·.pd) = [7, 5, 5] ∧ (r.net.series .line).map (·.buses) = [[20, 30], [20, 100], [30, 100]] := by
  have : okAnd (reduceNetwork 10 exTpNet 132 none none none) (fun r => decide (r.supers.map (·.bus) = [[0], [3, 4]] ∧ r.supers.map (·.coupling) = [[1, 2], [2]] ∧
    r.net.buses.map (·.number) = [20, 30, 100] ∧ r.net.buses.map (·.pd) = [7, 5, 5] ∧ (r.net.series .line).map (·.buses) = [[20, 30], [20, 100], [30, 100]])) = true := by
    decide +kernel
  obtain ⟨r, h1, h2⟩ := okAnd_iff.1 this
  exact ⟨r, h1, by simpa using h2⟩

/-- the last condition of C126 is met, and the generators of buses 20 and 30 stay -/
example : NetOk exTpNet2 ∧ (∀ x y, x < exTpNet2.buses.length → y < exTpNet2.buses.length → (netView exTpNet2 132 none).low x = true → (netView exTpNet2 132 none).low y = false → y < x) ∧
    ∃ r, reduceNetwork 10 exTpNet2 132 none none none = .ok r ∧ (r.net.gens .conv).map (·.bus) = [20, 30, 30] := by
  refine ⟨netOk_of_check _ (by decide +kernel), ?_, ?_⟩
  · have h : ∀ x < 4, ∀ y < 4, (netView exTpNet2 132 none).low x = true → (netView exTpNet2 132 none).low y = false → y < x := by decide +kernel
    intro x y hx hy
    exact h x hx y hy
  · have : okAnd (reduceNetwork 10 exTpNet2 132 none none none) (fun r => decide ((r.net.gens .conv).map (·.bus) = [20, 30, 30])) = true := by decide +kernel
    obtain ⟨r, h1, h2⟩ := okAnd_iff.1 this
    exact ⟨r, h1, by simpa using h2⟩

/-- **C124** (violated): the losses are 15 before and 20 after the reduction -/
theorem C124_violated : NetOk exTpNet ∧ lossTotal exTpNet = 15 ∧ ∃ r, reduceNetwork 10 exTpNet 132 none none none = .ok r ∧ lossTotal r.net = 20 := by
  refine ⟨exTpNet_ok, by decide +kernel, ?_⟩
  have : okAnd (reduceNetwork 10 exTpNet 132 none none none) (fun r => decide (lossTotal r.net = 20)) = true := by decide +kernel
  obtain ⟨r, h1, h2⟩ := okAnd_iff.1 this
  exact ⟨r, h1, by simpa using h2⟩

/-- **C126** (violated): the generator of bus 20, which is kept, is moved to the artificial bus 100, because its new position is the old one of bus 10; and bus 30, which has its own generator and that of bus
50, lists one of them -/
theorem C126_violated : NetOk exTpNet ∧ GensOk exTpNet ∧ (exTpNet.gens .conv).map (·.bus) = [20, 30, 50] ∧
    ∃ r, reduceNetwork 10 exTpNet 132 none none none = .ok r ∧ (r.net.gens .conv).map (·.bus) = [100, 30, 30] ∧
      r.net.buses.map (fun b => (b.number, b.genPos .conv)) = [(20, []), (30, [1]), (100, [0])] := by
  refine ⟨exTpNet_ok, exTpNet_gens, rfl, ?_⟩
  have : okAnd (reduceNetwork 10 exTpNet 132 none none none) (fun r => decide ((r.net.gens .conv).map (·.bus) = [100, 30, 30] ∧
      r.net.buses.map (fun b => (b.number, b.genPos .conv)) = [(20, []), (30, [1]), (100, [0])])) = true := by decide +kernel
  obtain ⟨r, h1, h2⟩ := okAnd_iff.1 this
  exact ⟨r, h1, by simpa using h2⟩

/-- **C128** (violated): the coupling buses 20 and 30 do not list the artificial lines 10 and 11 that end at them, bus 100 does -/
theorem C128_violated : NetOk exTpNet ∧ ∃ r, reduceNetwork 10 exTpNet 132 none none none = .ok r ∧
    (r.net.series .line).map (fun l => (l.number, l.busPos)) = [(2, [0, 1]), (10, [0, 2]), (11, [1, 2])] ∧
    r.net.buses.map (fun b => b.serPos .line) = [[0], [0], [1, 2]] ∧ ¬ NetOk r.net := by
  refine ⟨exTpNet_ok, ?_⟩
  have : okAnd (reduceNetwork 10 exTpNet 132 none none none) (fun r => decide ((r.net.series .line).map (fun l => (l.number, l.busPos)) = [(2, [0, 1]), (10, [0, 2]), (11, [1, 2])] ∧
    r.net.buses.map (fun b => b.serPos .line) = [[0], [0], [1, 2]])) = true := by decide +kernel
  obtain ⟨r, h1, h2⟩ := okAnd_iff.1 this
  have h2 : (r.net.series .line).map (fun l => (l.number, l.busPos)) = [(2, [0, 1]), (10, [0, 2]), (11, [1, 2])] ∧
    r.net.buses.map (fun b => b.serPos .line) = [[0], [0], [1, 2]] := by simpa using h2
  refine ⟨r, h1, h2.1, h2.2, ?_⟩
  intro hok
  have g1 : ∃ l, (r.net.series .line)[1]? = some l ∧ l.busPos = [0, 2] := by
    have := congrArg (fun l => l[1]?) h2.1
    simp only [List.getElem?_map] at this
    cases hl : (r.net.series .line)[1]? with
    | none => rw [hl] at this; simp at this
    | some l =>
      rw [hl] at this
      simp at this
      exact ⟨l, rfl, this.2⟩
  have g2 : ∃ b, r.net.buses[0]? = some b ∧ b.serPos .line = [0] := by
    have := congrArg (fun l => l[0]?) h2.2
    simp only [List.getElem?_map] at this
    cases hl : r.net.buses[0]? with
    | none => rw [hl] at this; simp at this
    | some b =>
      rw [hl] at this
      simp at this
      exact ⟨b, rfl, this⟩
  obtain ⟨l, hl, hlp⟩ := g1
  obtain ⟨b, hb, hbp⟩ := g2
  have := (hok.listed .line 1 l hl 0 b hb).2 (by rw [hlp]; simp)
  rw [hbp] at this
  simp at this

/-- **C129** (violated): the preserved line between 20 and 30 was at position 1, the list says 0 -/
theorem C129_violated : (exTpNet.series .line)[1]?.map (·.buses) = some [20, 30] ∧ (exTpNet.series .line)[0]?.map (·.buses) = some [30, 40] ∧
    ∃ r, reduceNetwork 10 exTpNet 132 none none none = .ok r ∧ r.preserved.head? = some ⟨0, [20, 30], 0, [20, 30]⟩ := by
  refine ⟨rfl, rfl, ?_⟩
  have : okAnd (reduceNetwork 10 exTpNet 132 none none none) (fun r => decide (r.preserved.head? = some ⟨0, [20, 30], 0, [20, 30]⟩)) = true := by decide +kernel
  obtain ⟨r, h1, h2⟩ := okAnd_iff.1 this
  exact ⟨r, h1, by simpa using h2⟩

/-- the conditions of the first part of C127 are met: buses 40 and 50 without the line to 30 -/
def exTpNet3 : TpNet where
  buses := [exTpBus 20 132 7 [2] [0] [] [] [] [], exTpBus 30 132 0 [2] [0] [] [] [] [], exTpBus 40 11 3 [3] [1] [] [] [] [], exTpBus 50 11 2 [3] [1] [] [] [] []]
  series := fun s => match s with
    | .line => [⟨2, [20, 30], [0, 1], 1, exPar 0⟩, ⟨3, [40, 50], [2, 3], 1, exPar 1⟩]
    | .trafo => []
  gens := fun _ => []

example : NetOk exTpNet3 ∧ (netView exTpNet3 132 none).low 2 = true ∧ okAnd (match reduceNetwork 10 exTpNet3 132 none none none with
    | .error .index => .ok true
    | _ => .ok false) id = true :=
  ⟨netOk_of_check _ (by decide +kernel), by decide +kernel, by decide +kernel⟩

end Pyensys
