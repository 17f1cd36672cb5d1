import Verif.Props.Reduce

/-!
# Reduction of a network to a voltage level: errors, ends of elements, generators (C126-C128)
-/

namespace Pyensys

/-! ## networks that cannot be reduced -/

theorem mapM_index {α β : Type} (f : α → Except PyErr β) (l : List α) (h : ∀ a ∈ l, f a = .error .index ∨ ∃ b, f a = .ok b) (a : α) (ha : a ∈ l)
    (hf : f a = .error .index) : l.mapM f = .error .index := by
  induction l with
  | nil => simp at ha
  | cons c l ih =>
    rw [List.mapM_cons]
    rcases h c List.mem_cons_self with hc | ⟨b, hc⟩
    · rw [hc]
      rfl
    · rw [hc]
      rcases List.mem_cons.1 ha with rfl | ha
      · rw [hf] at hc
        cases hc
      · rw [ih (fun a h' => h a (List.mem_cons_of_mem _ h')) ha]
        rfl

/-- **C127** (violated: such networks are valid).  If some bus below the level has no path below the level to an element that leads to a bus at or above it, the
reduction stops with an IndexError; and if a bus below the level exists and every line has an end below the level, the reduction does not succeed at all. -/
theorem C127_fails_violated (limit : Nat) (net : TpNet) (vol : Rat) (tw : Option Rat) (initBus initLine : Option Int) (hok : NetOk net) (x : Nat) (hx : x < net.buses.length)
    (hlow : (netView net vol tw).low x = true) :
    (vol ∈ net.buses.map (·.volt) → ((List.range net.buses.length).filter (netView net vol tw).low).length < limit →
      (∀ y, LowConn (netView net vol tw) x y → ∀ s el, y ∈ (netView net vol tw).ends s el → ∀ z ∈ (netView net vol tw).ends s el, (netView net vol tw).low z = true) →
      reduceNetwork limit net vol tw initBus initLine = .error .index) ∧
    ((∀ l ∈ net.series .line, ∃ z ∈ l.busPos, (netView net vol tw).low z = true) → ∀ r, reduceNetwork limit net vol tw initBus initLine ≠ .ok r) := by
  constructor
  · intro hvol hlim hiso
    obtain ⟨supers, h1, hs⟩ := findSupernodes_total (netView_ok hok vol tw) limit hlim
    obtain ⟨S, hS, hxS⟩ := (hs.mem x).2 ⟨hx, hlow⟩
    have hart : S.art = [] := by
      rw [hs.art S hS, List.filter_eq_nil_iff]
      intro e he hsome
      obtain ⟨z, hz, hzl⟩ := highEnd_isSome.1 hsome
      obtain ⟨y, hy, hyS⟩ := (hs.elMem S hS e).1 he
      have := hiso y ((hs.comp S hS x hxS y).1 hyS) e.1 e.2 hy z hz
      rw [hzl] at this
      cases this
    have hcoup : S.coupling = [] := by
      have := hs.coupling S hS
      rw [hart] at this
      simpa using this
    unfold reduceNetwork
    rw [if_neg (not_not.2 hvol), h1]
    simp only [bind, Except.bind]
    rw [if_neg (List.ne_nil_of_mem hS)]
    rw [mapM_index (superEq net) supers ?_ S hS (by simp [superEq, hcoup])]
    intro T _
    unfold superEq
    split
    · exact Or.inl rfl
    · exact Or.inr ⟨_, rfl⟩
  · intro hall r hr
    obtain ⟨_, h1, h2⟩ := reduce_parts hr
    have hs := findSupernodes_of_ok (netView_ok hok vol tw) h1
    rcases h2 with ⟨h0, _⟩ | ⟨_, hl, _⟩
    · obtain ⟨S, hS, _⟩ := (hs.mem x).2 ⟨hx, hlow⟩
      rw [h0] at hS
      simp at hS
    · apply hl
      rw [← List.map_eq_nil_iff (f := fun l : TpLine => l.number), deleteSupers_series net r.supers .line (fun l : TpLine => l.number) (fun _ _ => rfl), List.map_eq_nil_iff]
      rw [List.eq_nil_iff_forall_not_mem]
      intro l hl
      obtain ⟨i, hi, hni⟩ := mem_deleteAt.1 hl
      apply hni
      obtain ⟨z, hz, hzl⟩ := hall l (List.mem_of_getElem? hi)
      have hzv : z ∈ (netView net vol tw).ends .line i := by
        simp only [netView, hi]
        exact hz
      obtain ⟨S, hS, hzS⟩ := (hs.mem z).2 ⟨ends_lt (netView_ok hok vol tw) hzv, hzl⟩
      exact mem_superEls.2 ⟨S, hS, (hs.elMem S hS (.line, i)).2 ⟨z, hzv, hzS⟩⟩

/-! ## the ends of the elements -/

theorem relPos_eq : ∀ (keys : List Int) (i : Nat) (rem : List Int), keys.Nodup → rem.Nodup →
    relPos keys i rem = ((keys.zipIdx i).filter (fun p => decide (p.1 ∈ rem))).map (·.2) := by
  intro keys
  induction keys with
  | nil => intro i rem _ _; rfl
  | cons k ks ih =>
    intro i rem hk hr
    rw [List.nodup_cons] at hk
    unfold relPos
    rw [List.zipIdx_cons, List.filter_cons]
    by_cases hm : k ∈ rem
    · rw [if_pos hm, if_pos (by simpa using hm), List.map_cons, ih _ _ hk.2 (hr.erase k)]
      congr 2
      apply List.filter_congr
      intro p hp
      have : p.1 ∈ ks := (List.mem_zipIdx hp).2.2 ▸ List.getElem_mem _
      have hne : p.1 ≠ k := fun h => hk.1 (h ▸ this)
      rw [decide_eq_decide, List.Nodup.mem_erase_iff hr]
      simp [hne]
    · rw [if_neg hm, if_neg (by simpa using hm), ih _ _ hk.2 hr]

theorem relPos_two (keys : List Int) (a b : Int) (hk : keys.Nodup) (hab : a ≠ b) (ha : a ∈ keys) (hb : b ∈ keys) :
    ∃ x y : Nat, x < y ∧ relPos keys 0 [a, b] = [x, y] ∧ (keys[x]? = some a ∧ keys[y]? = some b ∨ keys[x]? = some b ∧ keys[y]? = some a) := by
  rw [relPos_eq keys 0 [a, b] hk (by simp [hab])]
  have hkey : ((keys.zipIdx 0).filter (fun p => decide (p.1 ∈ [a, b]))).map (·.1) = keys.filter (fun k => decide (k ∈ [a, b])) := by
    conv_rhs => rw [← List.zipIdx_map_fst 0 keys]
    rw [List.filter_map]
    rfl
  have hperm : (keys.filter (fun k => decide (k ∈ [a, b]))).Perm [a, b] := by
    rw [List.perm_ext_iff_of_nodup (hk.filter _) (by simp [hab])]
    intro k
    simp only [List.mem_filter, decide_eq_true_eq]
    constructor
    · exact fun h => h.2
    · intro h
      refine ⟨?_, h⟩
      simp only [List.mem_cons, List.not_mem_nil, or_false] at h
      rcases h with rfl | rfl
      · exact ha
      · exact hb
  have hsorted : (((keys.zipIdx 0).filter (fun p => decide (p.1 ∈ [a, b]))).map (·.2)).Pairwise (· < ·) := by
    apply List.Pairwise.sublist (l₂ := (keys.zipIdx 0).map (·.2))
    · exact List.filter_sublist.map _
    · rw [List.zipIdx_map_snd]
      exact List.pairwise_lt_range'
  have hmem : ∀ p ∈ (keys.zipIdx 0).filter (fun p => decide (p.1 ∈ [a, b])), keys[p.2]? = some p.1 := by
    intro p hp
    exact List.mem_zipIdx_iff_getElem?.1 (List.mem_filter.1 hp).1
  rw [← hkey] at hperm
  generalize (keys.zipIdx 0).filter (fun p => decide (p.1 ∈ [a, b])) = l at hperm hsorted hmem
  have hlen := hperm.length_eq
  match l, hlen with
  | [p, q], _ =>
    simp only [List.map_cons, List.map_nil] at hperm hsorted ⊢
    refine ⟨p.2, q.2, ?_, rfl, ?_⟩
    · simpa using hsorted
    · have h1 := hmem p (by simp)
      have h2 := hmem q (by simp)
      rw [h1, h2]
      have hp : p.1 ∈ [a, b] := hperm.mem_iff.1 (by simp)
      have hq : q.1 ∈ [a, b] := hperm.mem_iff.1 (by simp)
      have hnd : [p.1, q.1].Nodup := hperm.nodup_iff.2 (by simp [hab])
      simp only [List.mem_cons, List.not_mem_nil, or_false] at hp hq
      simp only [List.nodup_cons, List.mem_singleton, List.not_mem_nil, not_false_eq_true, List.nodup_nil, and_true] at hnd
      rcases hp with hp | hp <;> rcases hq with hq | hq
      · exact absurd (hp.trans hq.symm) hnd
      · left
        rw [hp, hq]
        exact ⟨rfl, rfl⟩
      · right
        rw [hp, hq]
        exact ⟨rfl, rfl⟩
      · exact absurd (hp.trans hq.symm) hnd

/-- after an update of all positions a series element that names two buses has their positions -/
theorem updateAll_ends (net : TpNet) (hn : (net.buses.map (·.number)).Nodup) (s : Series) (l : TpLine) (hl : l ∈ (updateAll net).series s) (a b : Int)
    (hb : l.buses = [a, b]) (hab : a ≠ b) (h1 : a ∈ net.buses.map (·.number)) (h2 : b ∈ net.buses.map (·.number)) :
    ∃ x y bx by', x ≠ y ∧ (updateAll net).buses[x]? = some bx ∧ (updateAll net).buses[y]? = some by' ∧ l.busPos = [x, y] ∧
      (l.buses = [bx.number, by'.number] ∨ l.buses = [by'.number, bx.number]) := by
  have e1 : (updateAll net).series s = (net.series s).map (fun l => { l with busPos := if net.buses = [] then [] else relPos (net.buses.map (·.number)) 0 l.buses }) := rfl
  rw [e1] at hl
  obtain ⟨l0, _, rfl⟩ := List.mem_map.1 hl
  simp only at hb ⊢
  have hne : net.buses ≠ [] := by
    intro h
    rw [h] at h1
    simp at h1
  rw [if_neg hne, hb]
  obtain ⟨x, y, hxy, hp, hk⟩ := relPos_two _ a b hn hab h1 h2
  have hnum := updateAll_map net (·.number) (fun _ _ _ => rfl)
  rw [← hnum] at hk
  rw [hp]
  have get : ∀ (i : Nat) (n : Int), ((updateAll net).buses.map (·.number))[i]? = some n → ∃ b, (updateAll net).buses[i]? = some b ∧ b.number = n := by
    intro i n h
    rw [List.getElem?_map] at h
    cases hb : (updateAll net).buses[i]? with
    | none => rw [hb] at h; cases h
    | some b =>
      rw [hb] at h
      exact ⟨b, rfl, by simpa using h⟩
  rcases hk with ⟨hx, hy⟩ | ⟨hx, hy⟩
  · obtain ⟨bx, hbx, rfl⟩ := get x a hx
    obtain ⟨by', hby, rfl⟩ := get y b hy
    exact ⟨x, y, bx, by', by omega, hbx, hby, rfl, Or.inl rfl⟩
  · obtain ⟨bx, hbx, rfl⟩ := get x b hx
    obtain ⟨by', hby, rfl⟩ := get y a hy
    exact ⟨x, y, bx, by', by omega, hbx, hby, rfl, Or.inr rfl⟩

/-- the buses of the artificial lines -/
theorem addSupers_newLines (net : TpNet) : ∀ (ps : List (Supernode × SuperEq)) (st : AddSt) (l : TpLine), l ∈ (ps.foldl (addSuper net) st).newLines →
    l ∈ st.newLines ∨ ∃ p ∈ ps, ∃ c ∈ p.1.coupling, ∃ n : Int, l.buses = [oldBusNo net c, n] ∧ n ∈ (ps.foldl (addSuper net) st).newNodes.map (·.number) ∧ st.nextBus ≤ n := by
  intro ps
  have mono : ∀ (qs : List (Supernode × SuperEq)) (st : AddSt) (n : Int), n ∈ st.newNodes.map (·.number) → n ∈ (qs.foldl (addSuper net) st).newNodes.map (·.number) := by
    intro qs
    induction qs with
    | nil => intro st n h; exact h
    | cons q qs ih =>
      intro st n h
      rw [List.foldl_cons]
      apply ih
      unfold addSuper
      split
      · simp only [List.map_append, List.mem_append]
        exact Or.inl h
      · cases q.1.coupling <;> exact h
  induction ps with
  | nil => intro st l h; exact Or.inl h
  | cons p ps ih =>
    intro st l h
    rw [List.foldl_cons] at h ⊢
    rcases ih _ l h with h | ⟨q, hq, c, hc, n, h1, h2, h3⟩
    · unfold addSuper at h
      split at h
      · rename_i hm
        rcases List.mem_append.1 h with h | h
        · exact Or.inl h
        · right
          unfold artLines at h
          obtain ⟨z, hz, rfl⟩ := List.mem_map.1 h
          have hz1 : z.1 ∈ p.1.coupling.zip p.1.art := (List.mem_zipIdx hz).2.2 ▸ List.getElem_mem _
          refine ⟨p, List.mem_cons_self, z.1.1, (List.of_mem_zip hz1).1, st.nextBus, rfl, ?_, le_refl _⟩
          apply mono
          simp only [addSuper, if_pos hm, List.map_append, List.mem_append, List.map_cons, List.map_nil, List.mem_singleton]
          exact Or.inr rfl
      · left
        cases hcp : p.1.coupling with
        | nil => rw [hcp] at h; exact h
        | cons c cs => rw [hcp] at h; exact h
    · right
      refine ⟨q, List.mem_cons_of_mem _ hq, c, hc, n, h1, h2, le_trans ?_ h3⟩
      unfold addSuper
      split
      · simp only
        omega
      · cases p.1.coupling <;> exact le_refl _

/-- **C128** (partial: see the violation below).  After a successful reduction without numbers given by the user bus numbers are unique and every line and
transformer of the reduced network names two different buses of it, by number and by position. -/
theorem C128_ends_partial (limit : Nat) (net : TpNet) (vol : Rat) (tw : Option Rat) (r : RdResult) (hok : NetOk net)
    (h : reduceNetwork limit net vol tw none none = .ok r) :
    (r.net.buses.map (·.number)).Nodup ∧
    ∀ s, ∀ l ∈ r.net.series s, ∃ x y bx by', x ≠ y ∧ r.net.buses[x]? = some bx ∧ r.net.buses[y]? = some by' ∧ l.busPos = [x, y] ∧
      (l.buses = [bx.number, by'.number] ∨ l.buses = [by'.number, bx.number]) := by
  obtain ⟨first, _, _, hfirst, _, hnum, hnd, _⟩ := C125_numbers limit net vol tw r hok h
  refine ⟨hnd, ?_⟩
  obtain ⟨_, h1, h2⟩ := reduce_parts h
  have hs := findSupernodes_of_ok (netView_ok hok vol tw) h1
  rcases h2 with ⟨h0, h2⟩ | ⟨h0, hl, qs, h3, h4, _⟩
  · rw [h2]
    exact hok.ends
  · intro s l hl
    rw [h4] at hl hnd ⊢
    unfold addedNet at hl hnd ⊢
    rw [updateAll_map _ (·.number) (fun _ _ _ => rfl)] at hnd
    obtain ⟨i1, i2, i3⟩ := addSupers_numbers net (r.supers.zip qs)
      ⟨(deleteSupers net r.supers).buses, [], [], [], (deleteSupers net r.supers).gens, firstBusNo net none, firstLineNo net none⟩
      (fun p hp => coupling_length hs (List.of_mem_zip hp).1)
    have hnodes : (addedSt net r.supers qs none none).nodes.map (·.number) = (net.buses.filter (fun b => decide (vol ≤ b.volt ∧ some b.volt ≠ tw))).map (·.number) := by
      unfold addedSt
      rw [i1]
      simp only
      rw [deleteSupers_map net r.supers (·.number) (fun _ _ _ => rfl), remaining_buses hs]
    have hhigh : ∀ (x : Nat) (b : TpBus), net.buses[x]? = some b → (netView net vol tw).low x = false →
        b.number ∈ (addedSt net r.supers qs none none).nodes.map (·.number) := by
      intro x b hb hx
      rw [hnodes]
      apply List.mem_map_of_mem
      rw [List.mem_filter]
      refine ⟨List.mem_of_getElem? hb, ?_⟩
      simp only [netView, hb] at hx
      simpa using hx
    -- the buses of the element
    have hbuses : ∃ a b : Int, l.buses = [a, b] ∧ a ≠ b ∧ a ∈ ((addedSt net r.supers qs none none).nodes ++ (addedSt net r.supers qs none none).newNodes).map (·.number) ∧
        b ∈ ((addedSt net r.supers qs none none).nodes ++ (addedSt net r.supers qs none none).newNodes).map (·.number) := by
      have hold : ∀ s, ∀ l ∈ (deleteSupers net r.supers).series s, ∃ a b : Int, l.buses = [a, b] ∧ a ≠ b ∧
          a ∈ (addedSt net r.supers qs none none).nodes.map (·.number) ∧ b ∈ (addedSt net r.supers qs none none).nodes.map (·.number) := by
        intro s l hl
        have hm : l.buses ∈ ((deleteSupers net r.supers).series s).map (·.buses) := List.mem_map_of_mem hl
        rw [deleteSupers_series net r.supers s (fun l => l.buses) (fun _ _ => rfl)] at hm
        obtain ⟨l0, hl0, hl0b⟩ := List.mem_map.1 hm
        obtain ⟨i, hi, hni⟩ := mem_deleteAt.1 hl0
        obtain ⟨x, y, bx, by', hxy, hx, hy, hp, hb⟩ := hok.ends s l0 (List.mem_of_getElem? hi)
        have hends : (netView net vol tw).ends s i = [x, y] := by
          simp only [netView, hi, hp]
        have hno : ∀ z ∈ [x, y], (netView net vol tw).low z = false := by
          intro z hz
          cases hzl : (netView net vol tw).low z with
          | false => rfl
          | true =>
            exfalso
            apply hni
            have hzv : z ∈ (netView net vol tw).ends s i := by rw [hends]; exact hz
            obtain ⟨S, hS, hzS⟩ := (hs.mem z).2 ⟨ends_lt (netView_ok hok vol tw) hzv, hzl⟩
            exact mem_superEls.2 ⟨S, hS, (hs.elMem S hS (s, i)).2 ⟨z, hzv, hzS⟩⟩
        have hne : bx.number ≠ by'.number := by
          intro he
          apply hxy
          have l1 := (List.getElem?_eq_some_iff.1 hx).1
          have l2 := (List.getElem?_eq_some_iff.1 hy).1
          have := (List.Nodup.getElem_inj_iff hok.numbers (i := x) (j := y) (hi := by simpa using l1) (hj := by simpa using l2)).1
          apply this
          rw [List.getElem_map, List.getElem_map, (List.getElem?_eq_some_iff.1 hx).2, (List.getElem?_eq_some_iff.1 hy).2]
          exact he
        have m1 := hhigh x bx hx (hno x (by simp))
        have m2 := hhigh y by' hy (hno y (by simp))
        rw [← hl0b]
        rcases hb with hb | hb
        · exact ⟨_, _, hb, hne, m1, m2⟩
        · exact ⟨_, _, hb, hne.symm, m2, m1⟩
      have hall : ∀ l : TpLine, l ∈ (match s with
          | .line => (deleteSupers net r.supers).series .line ++ (addedSt net r.supers qs none none).newLines
          | .trafo => (deleteSupers net r.supers).series .trafo : List TpLine) → ∃ a b : Int, l.buses = [a, b] ∧ a ≠ b ∧
          a ∈ ((addedSt net r.supers qs none none).nodes ++ (addedSt net r.supers qs none none).newNodes).map (·.number) ∧
          b ∈ ((addedSt net r.supers qs none none).nodes ++ (addedSt net r.supers qs none none).newNodes).map (·.number) := by
        intro l hl
        have widen : (∃ a b : Int, l.buses = [a, b] ∧ a ≠ b ∧
            a ∈ (addedSt net r.supers qs none none).nodes.map (·.number) ∧ b ∈ (addedSt net r.supers qs none none).nodes.map (·.number)) →
            ∃ a b : Int, l.buses = [a, b] ∧ a ≠ b ∧
          a ∈ ((addedSt net r.supers qs none none).nodes ++ (addedSt net r.supers qs none none).newNodes).map (·.number) ∧
          b ∈ ((addedSt net r.supers qs none none).nodes ++ (addedSt net r.supers qs none none).newNodes).map (·.number) := by
          rintro ⟨a, b, e1, e2, e3, e4⟩
          refine ⟨a, b, e1, e2, ?_, ?_⟩
          · rw [List.map_append]; exact List.mem_append_left _ e3
          · rw [List.map_append]; exact List.mem_append_left _ e4
        cases s with
        | trafo => exact widen (hold .trafo l hl)
        | line =>
          simp only at hl
          rcases List.mem_append.1 hl with hl | hl
          · exact widen (hold .line l hl)
          · unfold addedSt at hl
            rcases addSupers_newLines net _ _ l hl with hl | ⟨p, hp, c, hc, n, e1, e2, e3⟩
            · simp at hl
            · obtain ⟨b, hb, hbl, hbn, _⟩ := coupling_remains hok hs (List.of_mem_zip hp).1 hc
              simp only at e3
              refine ⟨_, _, e1, ?_, ?_, ?_⟩
              · have hlt : b.number < firstBusNo net none := powAbove_max _ _ (List.mem_map_of_mem (List.mem_of_getElem? hb))
                rw [hbn]
                omega
              · rw [hbn, List.map_append]
                exact List.mem_append_left _ (hhigh c b hb hbl)
              · rw [List.map_append]
                exact List.mem_append_right _ e2
      have hm : l.buses ∈ ((updateAll (addedRaw net r.supers (addedSt net r.supers qs none none))).series s).map (·.buses) := List.mem_map_of_mem hl
      rw [updateAll_series _ _ _ (fun _ _ => rfl)] at hm
      obtain ⟨l0, hl0, hl0b⟩ := List.mem_map.1 hm
      rw [← hl0b]
      exact hall l0 (by cases s <;> exact hl0)
    obtain ⟨a, b, e1, e2, e3, e4⟩ := hbuses
    exact updateAll_ends _ hnd s l hl a b e1 e2 e3 e4

end Pyensys
