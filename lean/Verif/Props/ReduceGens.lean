import Verif.Props.ReduceMore

/-!
# Reduction of a network to a voltage level: generators (C126)
-/

namespace Pyensys

/-- every generator names an existing bus, by number and by position -/
def GensOk (net : TpNet) : Prop := ∀ g, ∀ x ∈ net.gens g, ∃ b, net.buses[x.busPos]? = some b ∧ b.number = x.bus

/-- the bus number of a generator after the loop over the supernodes -/
def assignNo (net : TpNet) : List (Supernode × SuperEq) → Int → Nat → Int → Int
  | [], _, _, b => b
  | p :: ps, nb, pos, b =>
    if 1 < p.1.coupling.length then assignNo net ps (nb + 1) pos (if pos ∈ p.1.bus then nb else b)
    else match p.1.coupling with
      | [] => assignNo net ps nb pos b
      | c :: _ => assignNo net ps nb pos (if pos ∈ p.1.bus then oldBusNo net c else b)

theorem addSupers_gens (net : TpNet) : ∀ (ps : List (Supernode × SuperEq)) (st : AddSt),
    (∀ p ∈ ps, ∃ c, p.1.coupling.head? = some c ∧ oldBusNo net c ∈ st.nodes.map (·.number)) →
    ∀ g, (ps.foldl (addSuper net) st).gens g = (st.gens g).map (fun x => { x with bus := assignNo net ps st.nextBus x.busPos x.bus }) := by
  intro ps
  induction ps with
  | nil => intro st _ g; simp [assignNo]
  | cons p ps ih =>
    intro st hc g
    rw [List.foldl_cons]
    have hnum : (addSuper net st p).nodes.map (·.number) = st.nodes.map (·.number) := by
      unfold addSuper
      split
      · rfl
      · cases p.1.coupling with
        | nil => rfl
        | cons c cs =>
          simp only [List.map_map]
          apply List.map_congr_left
          intro b _
          simp only [Function.comp_apply, takeOver]
          split <;> rfl
    rw [ih _ (by rw [hnum]; exact fun q hq => hc q (List.mem_cons_of_mem _ hq)) g]
    obtain ⟨c, hhead, hmem⟩ := hc p List.mem_cons_self
    by_cases hm : 1 < p.1.coupling.length
    · simp only [addSuper, if_pos hm, moveGens, List.map_map, assignNo]
      apply List.map_congr_left
      intro x _
      simp only [Function.comp_apply]
      split <;> rfl
    · cases hcp : p.1.coupling with
      | nil => rw [hcp] at hhead; cases hhead
      | cons c' cs =>
        rw [hcp] at hhead hm
        simp only [List.head?_cons, Option.some.injEq] at hhead
        subst hhead
        have hany : st.nodes.any (fun b => decide (b.number = oldBusNo net c')) = true := by
          rw [List.any_eq_true]
          obtain ⟨b, hb, hb2⟩ := List.mem_map.1 hmem
          exact ⟨b, hb, by simpa using hb2⟩
        simp only [addSuper, hcp, if_neg hm, hany, if_true, moveGens, List.map_map, assignNo]
        apply List.map_congr_left
        intro x _
        simp only [Function.comp_apply]
        split <;> rfl

theorem assignNo_none (net : TpNet) : ∀ (ps : List (Supernode × SuperEq)) (nb : Int) (pos : Nat) (b : Int), (∀ p ∈ ps, pos ∉ p.1.bus) → assignNo net ps nb pos b = b := by
  intro ps
  induction ps with
  | nil => intros; rfl
  | cons p ps ih =>
    intro nb pos b h
    have h1 := h p List.mem_cons_self
    have h2 : ∀ q ∈ ps, pos ∉ q.1.bus := fun q hq => h q (List.mem_cons_of_mem _ hq)
    unfold assignNo
    simp only [if_neg h1]
    split
    · exact ih _ _ _ h2
    · split <;> exact ih _ _ _ h2

/-- where the generators of a supernode go -/
theorem assignNo_some (net : TpNet) : ∀ (ps : List (Supernode × SuperEq)) (st : AddSt) (p : Supernode × SuperEq), p ∈ ps →
    (ps.flatMap (fun q => q.1.bus)).Nodup → p.1.coupling.length = p.1.art.length →
    (∀ c, p.1.coupling = [c] → ∀ pos ∈ p.1.bus, ∀ b, assignNo net ps st.nextBus pos b = oldBusNo net c) ∧
    (1 < p.1.coupling.length → ∃ n : Int, st.nextBus ≤ n ∧ (∀ pos ∈ p.1.bus, ∀ b, assignNo net ps st.nextBus pos b = n) ∧
      n ∈ (ps.foldl (addSuper net) st).newNodes.map (·.number) ∧
      ∀ c ∈ p.1.coupling, ∃ l ∈ (ps.foldl (addSuper net) st).newLines, l.buses = [oldBusNo net c, n]) := by
  have mono : ∀ (qs : List (Supernode × SuperEq)) (st : AddSt), (∀ n : Int, n ∈ st.newNodes.map (·.number) → n ∈ (qs.foldl (addSuper net) st).newNodes.map (·.number)) ∧
      (∀ l : TpLine, l ∈ st.newLines → l ∈ (qs.foldl (addSuper net) st).newLines) := by
    intro qs
    induction qs with
    | nil => intro st; exact ⟨fun _ h => h, fun _ h => h⟩
    | cons q qs ih =>
      intro st
      rw [List.foldl_cons]
      obtain ⟨i1, i2⟩ := ih (addSuper net st q)
      constructor
      · intro n hn
        apply i1
        unfold addSuper
        split
        · simp only [List.map_append, List.mem_append]
          exact Or.inl hn
        · cases q.1.coupling <;> exact hn
      · intro l hl
        apply i2
        unfold addSuper
        split
        · exact List.mem_append_left _ hl
        · cases q.1.coupling <;> exact hl
  intro ps
  induction ps with
  | nil => intro st p hp; simp at hp
  | cons q ps ih =>
    intro st p hp hnd hlen
    rw [List.flatMap_cons, List.nodup_append] at hnd
    obtain ⟨_, n2, n3⟩ := hnd
    rcases List.mem_cons.1 hp with rfl | hp
    · have hrest : ∀ pos ∈ p.1.bus, ∀ q ∈ ps, pos ∉ q.1.bus := by
        intro pos h1 q hq h2
        exact n3 pos h1 pos (List.mem_flatMap.2 ⟨q, hq, h2⟩) rfl
      constructor
      · intro c hc pos hpos b
        unfold assignNo
        simp only [hc, List.length_singleton, lt_irrefl, if_false, if_pos hpos]
        exact assignNo_none net _ _ _ _ (hrest pos hpos)
      · intro hm
        refine ⟨st.nextBus, le_refl _, ?_, ?_, ?_⟩
        · intro pos hpos b
          unfold assignNo
          simp only [if_pos hm, if_pos hpos]
          exact assignNo_none net _ _ _ _ (hrest pos hpos)
        · rw [List.foldl_cons]
          apply (mono ps _).1
          simp only [addSuper, if_pos hm, List.map_append, List.mem_append, List.map_cons, List.map_nil, List.mem_singleton]
          exact Or.inr rfl
        · intro c hc
          obtain ⟨i, hi, hci⟩ := List.mem_iff_getElem.1 hc
          have hi2 : i < p.1.art.length := by omega
          have hz : i < (p.1.coupling.zip p.1.art).length := by rw [List.length_zip]; omega
          refine ⟨⟨st.nextLine + (i : Int), [oldBusNo net c, st.nextBus], [], 1, oldPar net p.1.art[i]⟩, ?_, rfl⟩
          rw [List.foldl_cons]
          apply (mono ps _).2
          simp only [addSuper, if_pos hm]
          apply List.mem_append_right
          unfold artLines
          rw [List.mem_map]
          refine ⟨((c, p.1.art[i]), i), ?_, rfl⟩
          rw [List.mem_zipIdx_iff_getElem?]
          simp only
          rw [List.getElem?_eq_getElem hz, List.getElem_zip, hci]
    · have hq : ∀ pos ∈ p.1.bus, pos ∉ q.1.bus := by
        intro pos h1 h2
        exact n3 pos h2 pos (List.mem_flatMap.2 ⟨p, hp, h1⟩) rfl
      obtain ⟨i1, i2⟩ := ih (addSuper net st q) p hp n2 hlen
      have step : ∀ pos ∈ p.1.bus, ∀ b, assignNo net (q :: ps) st.nextBus pos b = assignNo net ps (addSuper net st q).nextBus pos b := by
        intro pos hpos b
        conv_lhs => unfold assignNo
        simp only [if_neg (hq pos hpos)]
        unfold addSuper
        split
        · rfl
        · cases q.1.coupling <;> rfl
      have hle : st.nextBus ≤ (addSuper net st q).nextBus := by
        unfold addSuper
        split
        · simp only
          omega
        · cases q.1.coupling <;> exact le_refl _
      constructor
      · intro c hc pos hpos b
        rw [step pos hpos b]
        exact i1 c hc pos hpos b
      · intro hm
        obtain ⟨n, e1, e2, e3, e4⟩ := i2 hm
        refine ⟨n, le_trans hle e1, fun pos hpos b => ?_, ?_, ?_⟩
        · rw [step pos hpos b]
          exact e2 pos hpos b
        · rw [List.foldl_cons]
          exact e3
        · rw [List.foldl_cons]
          exact e4

/-- **C126** (partial: the generators of the other buses are only safe when the buses below the level come last).  A successful reduction, without a first bus number given by the user, keeps all
generators in their order with their capacities.  The generators of a supernode with one coupling element go to its coupling bus; those of a supernode with several go to
one and the same new bus, which a line joins to every coupling bus.  If all buses below the level come after the others, the generators of the other buses stay where
they are. -/
theorem C126_generators_partial (limit : Nat) (net : TpNet) (vol : Rat) (tw : Option Rat) (initLine : Option Int) (r : RdResult) (hok : NetOk net) (hgen : GensOk net)
    (h : reduceNetwork limit net vol tw none initLine = .ok r) (g : GenT) :
    (r.net.gens g).map (·.cap) = (net.gens g).map (·.cap) ∧
    (∀ S ∈ r.supers, ∀ c, S.coupling = [c] → ∀ (i : Nat) (x : TpGen), (net.gens g)[i]? = some x → x.busPos ∈ S.bus →
      ∃ x', (r.net.gens g)[i]? = some x' ∧ ∃ b, net.buses[c]? = some b ∧ x'.bus = b.number) ∧
    (∀ S ∈ r.supers, 1 < S.coupling.length → ∃ n : Int, n ∈ r.net.buses.map (·.number) ∧ n ∉ net.buses.map (·.number) ∧
      (∀ c ∈ S.coupling, ∃ b, net.buses[c]? = some b ∧ ∃ l ∈ r.net.series .line, l.buses = [b.number, n]) ∧
      ∀ (i : Nat) (x : TpGen), (net.gens g)[i]? = some x → x.busPos ∈ S.bus → ∃ x', (r.net.gens g)[i]? = some x' ∧ x'.bus = n) ∧
    ((∀ x y, x < net.buses.length → y < net.buses.length → (netView net vol tw).low x = true → (netView net vol tw).low y = false → y < x) →
      ∀ (i : Nat) (x : TpGen), (net.gens g)[i]? = some x → (netView net vol tw).low x.busPos = false → ∃ x', (r.net.gens g)[i]? = some x' ∧ x'.bus = x.bus) := by
  obtain ⟨_, h1, h2⟩ := reduce_parts h
  have hs := findSupernodes_of_ok (netView_ok hok vol tw) h1
  rcases h2 with ⟨h0, h2⟩ | ⟨h0, hl, qs, h3, h4, _⟩
  · rw [h2]
    refine ⟨rfl, by simp, by simp, ?_⟩
    intro _ i x hx _
    exact ⟨x, hx, rfl⟩
  · have hF := (mapM_ok_iff _ _ _).1 h3
    have hfst : (r.supers.zip qs).map (·.1) = r.supers := List.map_fst_zip (by rw [hF.length_eq])
    -- the remaining numbers
    have hkeys : (deleteSupers net r.supers).buses.map (·.number) = (deleteAt net.buses (r.supers.flatMap (·.bus))).map (·.number) :=
      deleteSupers_map net r.supers (·.number) (fun _ _ _ => rfl)
    have hheads : ∀ p ∈ r.supers.zip qs, ∃ c, p.1.coupling.head? = some c ∧ oldBusNo net c ∈ (deleteSupers net r.supers).buses.map (·.number) := by
      intro p hp
      have hS : p.1 ∈ r.supers := (List.of_mem_zip hp).1
      have hne : p.1.coupling ≠ [] := by
        obtain ⟨i, hi, hpi⟩ := List.mem_iff_getElem.1 hp
        rw [List.getElem_zip] at hpi
        subst hpi
        have hi1 : i < r.supers.length := by rw [List.length_zip] at hi; omega
        have hi2 : i < qs.length := by rw [List.length_zip] at hi; omega
        exact (superEq_ok ((List.forall₂_iff_get.1 hF).2 i hi1 hi2)).1
      obtain ⟨c, cs, hc⟩ := List.exists_cons_of_ne_nil hne
      refine ⟨c, by rw [hc]; rfl, ?_⟩
      obtain ⟨b, _, _, hb2, hb3⟩ := coupling_remains hok hs hS (c := c) (by rw [hc]; exact List.mem_cons_self)
      rw [hkeys, hb2]
      exact List.mem_map_of_mem hb3
    have hne : deleteAt net.buses (r.supers.flatMap (·.bus)) ≠ [] := by
      obtain ⟨S, l, hSl⟩ := List.exists_cons_of_ne_nil h0
      have : ∃ p, p ∈ r.supers.zip qs := by
        cases hq : qs with
        | nil =>
          have := hF.length_eq
          rw [hq, hSl] at this
          simp at this
        | cons q qs' => exact ⟨(S, q), by rw [hSl]; simp⟩
      obtain ⟨p, hp⟩ := this
      obtain ⟨c, _, hm⟩ := hheads p hp
      intro he
      rw [hkeys, he] at hm
      simp at hm
    -- the generators after the deletion
    have hrest : (deleteSupers net r.supers).gens g = (net.gens g).map (fun x =>
        { x with busPos := relOne ((deleteAt net.buses (r.supers.flatMap (·.bus))).map (·.number)) x.bus x.busPos }) := by
      have : (deleteSupers net r.supers).gens g = (net.gens g).map (fun x => ⟨x.bus, (if deleteAt net.buses (r.supers.flatMap (·.bus)) = [] then x.busPos else
        relOne ((deleteAt net.buses (r.supers.flatMap (·.bus))).map (·.number)) x.bus x.busPos), x.cap⟩) := rfl
      rw [this]
      simp only [if_neg hne]
    -- the generators at the end
    have hfinal : ∃ w : TpGen → Nat, r.net.gens g = (net.gens g).map (fun x => ⟨assignNo net (r.supers.zip qs) (firstBusNo net none)
        (relOne ((deleteAt net.buses (r.supers.flatMap (·.bus))).map (·.number)) x.bus x.busPos) x.bus, w x, x.cap⟩) := by
      rw [h4]
      have e : (addedNet net r.supers (addedSt net r.supers qs none initLine)).gens g =
          ((addedSt net r.supers qs none initLine).gens g).map (fun x => ⟨x.bus, (if (addedSt net r.supers qs none initLine).nodes ++ (addedSt net r.supers qs none initLine).newNodes = [] then x.busPos
            else relOne (((addedSt net r.supers qs none initLine).nodes ++ (addedSt net r.supers qs none initLine).newNodes).map (·.number)) x.bus x.busPos), x.cap⟩) := rfl
      rw [e]
      unfold addedSt
      rw [addSupers_gens net (r.supers.zip qs) _ hheads g]
      simp only
      rw [hrest, List.map_map, List.map_map]
      exact ⟨_, rfl⟩
    obtain ⟨w, hfinal⟩ := hfinal
    have hget : ∀ (i : Nat) (x : TpGen), (net.gens g)[i]? = some x → (r.net.gens g)[i]? = some ⟨assignNo net (r.supers.zip qs) (firstBusNo net none)
        (relOne ((deleteAt net.buses (r.supers.flatMap (·.bus))).map (·.number)) x.bus x.busPos) x.bus, w x, x.cap⟩ := by
      intro i x hx
      rw [hfinal, List.getElem?_map, hx]
      rfl
    -- the position of a generator of a supernode
    have hkeep : ∀ x ∈ net.gens g, x.busPos ∈ r.supers.flatMap (·.bus) →
        relOne ((deleteAt net.buses (r.supers.flatMap (·.bus))).map (·.number)) x.bus x.busPos = x.busPos := by
      intro x hx hp
      obtain ⟨b, hb, hbn⟩ := hgen g x hx
      unfold relOne
      have : List.findIdx? (fun k => decide (k = x.bus)) ((deleteAt net.buses (r.supers.flatMap (·.bus))).map (·.number)) = none := by
        rw [List.findIdx?_eq_none_iff]
        intro k hk
        obtain ⟨b', hb', rfl⟩ := List.mem_map.1 hk
        obtain ⟨j, hj, hjn⟩ := mem_deleteAt.1 hb'
        simp only [decide_eq_false_iff_not]
        intro he
        apply hjn
        have l1 := (List.getElem?_eq_some_iff.1 hj).1
        have l2 := (List.getElem?_eq_some_iff.1 hb).1
        have := (List.Nodup.getElem_inj_iff hok.numbers (i := j) (j := x.busPos) (hi := by simpa using l1) (hj := by simpa using l2)).1 (by
          rw [List.getElem_map, List.getElem_map, (List.getElem?_eq_some_iff.1 hj).2, (List.getElem?_eq_some_iff.1 hb).2, he, hbn])
        rw [this]
        exact hp
      rw [this]
      rfl
    have hnodup : ((r.supers.zip qs).flatMap (fun q => q.1.bus)).Nodup := by
      have : (r.supers.zip qs).flatMap (fun q => q.1.bus) = r.supers.flatMap (·.bus) := by
        conv_rhs => rw [← hfst]
        rw [List.flatMap_map]
      rw [this]
      exact hs.nodup
    have hpair : ∀ S ∈ r.supers, ∃ q, (S, q) ∈ r.supers.zip qs := by
      intro S hS
      rw [← hfst] at hS
      obtain ⟨p, hp, rfl⟩ := List.mem_map.1 hS
      exact ⟨p.2, hp⟩
    refine ⟨?_, ?_, ?_, ?_⟩
    · rw [hfinal, List.map_map]
      rfl
    · intro S hS c hc i x hx hp
      refine ⟨_, hget i x hx, ?_⟩
      obtain ⟨b, hb, _, hbn, _⟩ := coupling_remains hok hs hS (c := c) (by rw [hc]; exact List.mem_cons_self)
      refine ⟨b, hb, ?_⟩
      obtain ⟨q, hq⟩ := hpair S hS
      simp only
      rw [hkeep x (List.mem_of_getElem? hx) (List.mem_flatMap.2 ⟨S, hS, hp⟩), ← hbn]
      exact (assignNo_some net (r.supers.zip qs) ⟨(deleteSupers net r.supers).buses, [], [], [], (deleteSupers net r.supers).gens, firstBusNo net none, firstLineNo net initLine⟩
        (S, q) hq hnodup (coupling_length hs hS)).1 c hc x.busPos hp x.bus
    · intro S hS hm
      obtain ⟨q, hq⟩ := hpair S hS
      obtain ⟨n, e1, e2, e3, e4⟩ := (assignNo_some net (r.supers.zip qs)
        ⟨(deleteSupers net r.supers).buses, [], [], [], (deleteSupers net r.supers).gens, firstBusNo net none, firstLineNo net initLine⟩
        (S, q) hq hnodup (coupling_length hs hS)).2 hm
      refine ⟨n, ?_, ?_, ?_, ?_⟩
      · rw [h4]
        unfold addedNet
        rw [updateAll_map _ _ (fun _ _ _ => rfl)]
        unfold addedRaw
        rw [List.map_append]
        exact List.mem_append_right _ e3
      · intro hmem
        obtain ⟨b, hb, hbn⟩ := List.mem_map.1 hmem
        have : b.number < firstBusNo net none := powAbove_max _ _ (List.mem_map_of_mem hb)
        simp only at e1
        omega
      · intro c hc
        obtain ⟨b, hb, _, hbn, _⟩ := coupling_remains hok hs hS hc
        refine ⟨b, hb, ?_⟩
        obtain ⟨l, hl1, hl2⟩ := e4 c hc
        have hm2 : l.buses ∈ (r.net.series .line).map (·.buses) := by
          rw [h4]
          unfold addedNet
          rw [updateAll_series _ _ _ (fun _ _ => rfl)]
          unfold addedRaw
          simp only [List.map_append]
          exact List.mem_append_right _ (List.mem_map_of_mem hl1)
        obtain ⟨l', hl', hl'b⟩ := List.mem_map.1 hm2
        exact ⟨l', hl', by rw [hl'b, hl2, hbn]⟩
      · intro i x hx hp
        refine ⟨_, hget i x hx, ?_⟩
        simp only
        rw [hkeep x (List.mem_of_getElem? hx) (List.mem_flatMap.2 ⟨S, hS, hp⟩)]
        exact e2 x.busPos hp x.bus
    · intro hlast i x hx hhigh
      refine ⟨_, hget i x hx, ?_⟩
      simp only
      apply assignNo_none
      intro p hp hmem
      have hS : p.1 ∈ r.supers := (List.of_mem_zip hp).1
      obtain ⟨hlt, hlow⟩ := (hs.mem _).1 ⟨p.1, hS, hmem⟩
      obtain ⟨b, hb, hbn⟩ := hgen g x (List.mem_of_getElem? hx)
      -- the new position is below the number of remaining buses
      have hin : x.bus ∈ (deleteAt net.buses (r.supers.flatMap (·.bus))).map (·.number) := by
        rw [← hbn]
        apply List.mem_map_of_mem
        rw [mem_deleteAt]
        refine ⟨x.busPos, hb, ?_⟩
        intro hm
        obtain ⟨T, hT, hxT⟩ := List.mem_flatMap.1 hm
        have := ((hs.mem _).1 ⟨T, hT, hxT⟩).2
        rw [hhigh] at this
        cases this
      have hpos : relOne ((deleteAt net.buses (r.supers.flatMap (·.bus))).map (·.number)) x.bus x.busPos < (deleteAt net.buses (r.supers.flatMap (·.bus))).length := by
        unfold relOne
        have hsome := List.findIdx?_eq_some_of_exists (p := fun k => decide (k = x.bus)) (xs := (deleteAt net.buses (r.supers.flatMap (·.bus))).map (·.number)) ⟨x.bus, hin, by simp⟩
        rw [hsome]
        simp only [Option.getD_some]
        have := List.findIdx_lt_length_of_exists (p := fun k => decide (k = x.bus)) (xs := (deleteAt net.buses (r.supers.flatMap (·.bus))).map (·.number)) ⟨x.bus, hin, by simp⟩
        rw [List.length_map] at this
        exact this
      -- every position below the number of remaining buses is a remaining bus
      have hcount : (deleteAt net.buses (r.supers.flatMap (·.bus))).length ≤ relOne ((deleteAt net.buses (r.supers.flatMap (·.bus))).map (·.number)) x.bus x.busPos := by
        obtain ⟨k, hk⟩ : ∃ k, k = relOne ((deleteAt net.buses (r.supers.flatMap (·.bus))).map (·.number)) x.bus x.busPos := ⟨_, rfl⟩
        rw [← hk] at hlow hlt ⊢
        have hlen : (deleteAt net.buses (r.supers.flatMap (·.bus))).length = ((net.buses.zipIdx.filter (fun p => decide (p.2 ∉ r.supers.flatMap (·.bus)))).map (·.2)).length := by
          unfold deleteAt
          rw [List.length_map, List.length_map]
        rw [hlen]
        have hsub : ((net.buses.zipIdx.filter (fun p => decide (p.2 ∉ r.supers.flatMap (·.bus)))).map (·.2)) ⊆ List.range k := by
          intro y hy
          obtain ⟨z, hz, rfl⟩ := List.mem_map.1 hy
          obtain ⟨hz1, hz2⟩ := List.mem_filter.1 hz
          rw [List.mem_zipIdx_iff_getElem?] at hz1
          have hzlt := (List.getElem?_eq_some_iff.1 hz1).1
          rw [List.mem_range]
          apply hlast k z.2 hlt hzlt hlow
          cases hzl : (netView net vol tw).low z.2 with
          | false => rfl
          | true =>
            exfalso
            simp only [decide_eq_true_eq] at hz2
            apply hz2
            obtain ⟨T, hT, hzT⟩ := (hs.mem z.2).2 ⟨hzlt, hzl⟩
            exact List.mem_flatMap.2 ⟨T, hT, hzT⟩
        have hnd : ((net.buses.zipIdx.filter (fun p => decide (p.2 ∉ r.supers.flatMap (·.bus)))).map (·.2)).Nodup := by
          apply List.Nodup.sublist (l₂ := net.buses.zipIdx.map (·.2))
          · exact List.filter_sublist.map _
          · rw [List.zipIdx_map_snd]
            exact List.nodup_range'
        have := (List.subperm_of_subset hnd hsub).length_le
        rw [List.length_range] at this
        exact this
      omega

end Pyensys
