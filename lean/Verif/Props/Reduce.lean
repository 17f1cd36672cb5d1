import Verif.Model.Reduce
import Verif.Props.Reduction
import Mathlib.Algebra.BigOperators.Group.List.Basic
import Mathlib.Algebra.Order.Ring.Rat
import Mathlib.Data.List.Perm.Basic
import Mathlib.Data.List.Perm.Lattice
import Mathlib.Tactic.Ring
import Mathlib.Tactic.Linarith

/-!
# Reduction of a network to a voltage level: demand, losses, numbers, generators (C123-C128)
-/

namespace Pyensys

/-! ## specification -/

/-- a network whose tables fit: bus numbers are unique; a series element names two different buses by number and by position; the positions of elements in a bus are those
of its elements -/
structure NetOk (net : TpNet) : Prop where
  numbers : (net.buses.map (·.number)).Nodup
  ends : ∀ s, ∀ l ∈ net.series s, ∃ x y bx by', x ≠ y ∧ net.buses[x]? = some bx ∧ net.buses[y]? = some by' ∧ l.busPos = [x, y] ∧
    (l.buses = [bx.number, by'.number] ∨ l.buses = [by'.number, bx.number])
  listed : ∀ (s : Series) (e : Nat) (l : TpLine), (net.series s)[e]? = some l → ∀ (x : Nat) (b : TpBus), net.buses[x]? = some b → (e ∈ b.serPos s ↔ x ∈ l.busPos)
  range : ∀ s, ∀ b ∈ net.buses, ∀ e ∈ b.serPos s, e < (net.series s).length

/-- the sum of a quantity over the buses -/
def busTotal (net : TpNet) (f : TpBus → Rat) : Rat := (net.buses.map f).sum

/-- the losses of the buses, lines and transformers -/
def lossTotal (net : TpNet) : Rat :=
  busTotal net (·.loss) + ((net.series .line).map (fun l => l.par.loss.getD 0)).sum + ((net.series .trafo).map (fun l => l.par.loss.getD 0)).sum

/-! ## lemmas about deletion -/

theorem netView_ok {net : TpNet} (h : NetOk net) (vol : Rat) (tw : Option Rat) : RdOk (netView net vol tw) := by
  constructor
  · intro s b el hel
    simp only [netView] at hel
    cases hb : net.buses[b]? with
    | none => rw [hb] at hel; simp at hel
    | some bus =>
      rw [hb] at hel
      simp only at hel
      split at hel
      · simp at hel
      · have hr := h.range s bus (List.mem_of_getElem? hb) el hel
        obtain ⟨x, y, bx, by', hxy, hx, hy, hp, _⟩ := h.ends s (net.series s)[el] (List.getElem_mem hr)
        have hm := (h.listed s el _ (List.getElem?_eq_getElem hr) b bus hb).1 hel
        refine ⟨x, y, hxy, ?_, ?_, ?_, ?_⟩
        · exact (List.getElem?_eq_some_iff.1 hx).1
        · exact (List.getElem?_eq_some_iff.1 hy).1
        · simp only [netView, List.getElem?_eq_getElem hr, hp]
        · rw [hp] at hm
          simpa using hm
  · intro s b el hb
    simp only [netView] at hb ⊢
    cases hl : (net.series s)[el]? with
    | none => rw [hl] at hb; simp at hb
    | some l =>
      rw [hl] at hb
      simp only at hb
      obtain ⟨x, y, bx, by', hxy, hx, hy, hp, _⟩ := h.ends s l (List.mem_of_getElem? hl)
      have : ∃ bus, net.buses[b]? = some bus := by
        rw [hp] at hb
        simp only [List.mem_cons, List.not_mem_nil, or_false] at hb
        rcases hb with rfl | rfl
        · exact ⟨_, hx⟩
        · exact ⟨_, hy⟩
      obtain ⟨bus, hbus⟩ := this
      rw [hbus]
      simp only
      rw [if_neg (by intro h0; rw [h0] at hl; simp at hl)]
      exact (h.listed s el l hl b bus hbus).2 hb

theorem mem_deleteAt {α : Type} {l : List α} {pos : List Nat} {a : α} : a ∈ deleteAt l pos ↔ ∃ i : Nat, l[i]? = some a ∧ i ∉ pos := by
  unfold deleteAt
  simp only [List.mem_map, List.mem_filter, decide_eq_true_eq, Prod.exists, exists_and_right, exists_eq_right, List.mem_zipIdx_iff_getElem?]

theorem sum_filter_split {α : Type} (l : List α) (p : α → Bool) (f : α → Rat) :
    (l.map f).sum = ((l.filter (fun a => !p a)).map f).sum + ((l.filter p).map f).sum := by
  induction l with
  | nil => simp
  | cons a l ih =>
    rw [List.map_cons, List.sum_cons, ih, List.filter_cons, List.filter_cons]
    cases p a <;> simp <;> ring

/-- the values at a list of different positions and the values that remain -/
theorem deleteAt_sum {α : Type} (l : List α) (f : α → Rat) (pos : List Nat) (hnd : pos.Nodup) (hr : ∀ x ∈ pos, x < l.length) (g : Nat → Rat)
    (hg : ∀ (i : Nat) (a : α), l[i]? = some a → g i = f a) : (l.map f).sum = ((deleteAt l pos).map f).sum + (pos.map g).sum := by
  have h1 : l.map f = l.zipIdx.map (fun p => f p.1) := by
    conv_lhs => rw [← List.zipIdx_map_fst 0 l]
    rw [List.map_map]
    rfl
  rw [h1, sum_filter_split l.zipIdx (fun p => decide (p.2 ∈ pos))]
  congr 1
  · unfold deleteAt
    rw [List.map_map]
    simp only [decide_not, Function.comp_def]
  · have h2 : (l.zipIdx.filter (fun p => decide (p.2 ∈ pos))).map (fun p => f p.1) = ((l.zipIdx.filter (fun p => decide (p.2 ∈ pos))).map (·.2)).map g := by
      rw [List.map_map]
      apply List.map_congr_left
      intro p hp
      have := (List.mem_filter.1 hp).1
      rw [List.mem_zipIdx_iff_getElem?] at this
      exact (hg p.2 p.1 this).symm
    rw [h2]
    apply List.Perm.sum_eq
    apply List.Perm.map
    rw [List.perm_ext_iff_of_nodup ?_ hnd]
    · intro i
      simp only [List.mem_map, List.mem_filter, decide_eq_true_eq, Prod.exists, exists_eq_right, List.mem_zipIdx_iff_getElem?]
      constructor
      · rintro ⟨a, _, h⟩
        exact h
      · intro h
        exact ⟨l[i]'(hr i h), List.getElem?_eq_getElem (hr i h), h⟩
    · apply List.Nodup.sublist (l₂ := l.zipIdx.map (·.2))
      · exact List.filter_sublist.map _
      · rw [List.zipIdx_map_snd]
        exact List.nodup_range'

/-! ## the buses and elements of supernodes -/

theorem busVal_of {net : TpNet} {f : TpBus → Rat} {x : Nat} {b : TpBus} (h : net.buses[x]? = some b) : busVal net f x = f b := by
  simp [busVal, h]

theorem sum_flatMap' {α β : Type} (l : List α) (g : α → List β) (f : β → Rat) : ((l.flatMap g).map f).sum = (l.map (fun a => ((g a).map f).sum)).sum := by
  induction l with
  | nil => rfl
  | cons a l ih => rw [List.flatMap_cons, List.map_append, List.sum_append, ih, List.map_cons, List.sum_cons]

theorem updateAll_map {β : Type} (net : TpNet) (f : TpBus → β) (hf : ∀ (b : TpBus) (s : Series → List Nat) (g : GenT → List Nat), f { b with serPos := s, genPos := g } = f b) :
    (updateAll net).buses.map f = net.buses.map f := by
  simp only [updateAll, updGenPos, updSerPos, updBusPos, List.map_map]
  apply List.map_congr_left
  intro b _
  simp only [Function.comp_apply]
  have e : ∀ (s : Series → List Nat) (g : GenT → List Nat), f ⟨b.number, b.volt, b.pd, b.qd, b.loss, b.serNo, s, b.genNo, g⟩ = f b := fun s g => hf b s g
  exact e _ _

/-- the loop that adds the supernodes: what happens to a sum over the buses -/
theorem addSupers_total {net : TpNet} (f : TpBus → Rat) (q : SuperEq → Rat) (ps : List (Supernode × SuperEq))
    (hart : ∀ (S : Supernode) (e : SuperEq) num first gens, f (artBus S e num first gens) = q e)
    (htake : ∀ (S : Supernode) (e : SuperEq) num gens b, b.number = num → f (takeOver S e num gens b) = q e + f b) :
    ∀ (st : AddSt), (st.nodes.map (·.number)).Nodup →
      (∀ p ∈ ps, ∃ c, p.1.coupling.head? = some c ∧ oldBusNo net c ∈ st.nodes.map (·.number)) →
      let st' := ps.foldl (addSuper net) st
      ((st'.nodes ++ st'.newNodes).map f).sum = ((st.nodes ++ st.newNodes).map f).sum + (ps.map (fun p => q p.2)).sum := by
  induction ps with
  | nil => intro st _ _; simp
  | cons p ps ih =>
    intro st hnd hc
    simp only [List.foldl_cons]
    have hnum : (addSuper net st p).nodes.map (·.number) = st.nodes.map (·.number) := by
      unfold addSuper
      split
      · rfl
      · cases p.1.coupling with
        | nil => rfl
        | cons c cs =>
          simp only [List.map_map]
          apply List.map_congr_left
          intro b _
          simp only [Function.comp_apply, takeOver]
          split <;> rfl
    have h1 := ih (addSuper net st p) (by rw [hnum]; exact hnd) (by
      intro p' hp'
      rw [hnum]
      exact hc p' (List.mem_cons_of_mem _ hp'))
    simp only at h1
    rw [h1, List.map_cons, List.sum_cons]
    have h2 : (((addSuper net st p).nodes ++ (addSuper net st p).newNodes).map f).sum = ((st.nodes ++ st.newNodes).map f).sum + q p.2 := by
      obtain ⟨c, hhead, hmem⟩ := hc p List.mem_cons_self
      unfold addSuper
      split
      · simp only [List.map_append, List.sum_append, List.map_cons, List.map_nil, List.sum_cons, List.sum_nil, hart]
        ring
      · cases hcp : p.1.coupling with
        | nil => rw [hcp] at hhead; cases hhead
        | cons c' cs =>
          rw [hcp] at hhead
          simp only [List.head?_cons, Option.some.injEq] at hhead
          subst hhead
          simp only [List.map_append, List.sum_append, List.map_map]
          have key : ∀ l : List TpBus, (l.map (·.number)).Nodup → oldBusNo net c' ∈ l.map (·.number) →
              (l.map (f ∘ takeOver p.1 p.2 (oldBusNo net c') st.gens)).sum = (l.map f).sum + q p.2 := by
            intro l
            induction l with
            | nil => intro _ h; simp at h
            | cons b l ih2 =>
              intro hn hm
              rw [List.map_cons, List.sum_cons, List.map_cons, List.sum_cons]
              rw [List.map_cons, List.nodup_cons] at hn
              by_cases hb : b.number = oldBusNo net c'
              · have hrest : l.map (f ∘ takeOver p.1 p.2 (oldBusNo net c') st.gens) = l.map f := by
                  apply List.map_congr_left
                  intro b' hb'
                  have hne : b'.number ≠ oldBusNo net c' := by
                    intro h
                    apply hn.1
                    rw [hb, ← h]
                    exact List.mem_map_of_mem hb'
                  simp only [Function.comp_apply, takeOver, if_neg hne]
                rw [hrest, Function.comp_apply, htake p.1 p.2 _ st.gens b hb]
                ring
              · rw [ih2 hn.2 (by
                  rw [List.map_cons, List.mem_cons] at hm
                  rcases hm with hm | hm
                  · exact absurd hm.symm hb
                  · exact hm)]
                simp only [Function.comp_apply, takeOver, if_neg hb]
                ring
          rw [key st.nodes hnd hmem]
          ring
    rw [h2]
    ring

theorem deleteSupers_map {β : Type} (net : TpNet) (supers : List Supernode) (f : TpBus → β)
    (hf : ∀ (b : TpBus) (s : Series → List Nat) (g : GenT → List Nat), f { b with serPos := s, genPos := g } = f b) :
    (deleteSupers net supers).buses.map f = (deleteAt net.buses (supers.flatMap (·.bus))).map f := by
  simp only [deleteSupers, deleteSeries, deleteBuses, updSerPos, updBusPos, List.map_map]
  apply List.map_congr_left
  intro b _
  simp only [Function.comp_apply]
  have e : ∀ (s : Series → List Nat) (g : GenT → List Nat), f ⟨b.number, b.volt, b.pd, b.qd, b.loss, b.serNo, s, b.genNo, g⟩ = f b := fun s g => hf b s g
  exact e _ _

/-- the state after the loop over the supernodes -/
def addedSt (net : TpNet) (supers : List Supernode) (qs : List SuperEq) (initBus initLine : Option Int) : AddSt :=
  (supers.zip qs).foldl (addSuper net) ⟨(deleteSupers net supers).buses, [], [], [], (deleteSupers net supers).gens, firstBusNo net initBus, firstLineNo net initLine⟩

/-- the network after the reduction, before the update of the positions -/
def addedRaw (net : TpNet) (supers : List Supernode) (st : AddSt) : TpNet :=
  ⟨st.nodes ++ st.newNodes, fun s => match s with
      | .line => (deleteSupers net supers).series .line ++ st.newLines
      | .trafo => (deleteSupers net supers).series .trafo, st.gens⟩

/-- the network after the reduction -/
def addedNet (net : TpNet) (supers : List Supernode) (st : AddSt) : TpNet := updateAll (addedRaw net supers st)

theorem reduce_parts {limit : Nat} {net : TpNet} {vol : Rat} {tw : Option Rat} {initBus initLine : Option Int} {r : RdResult}
    (h : reduceNetwork limit net vol tw initBus initLine = .ok r) : vol ∈ net.buses.map (·.volt) ∧
    findSupernodes (netView net vol tw) limit = .ok r.supers ∧
    (r.supers = [] ∧ r = ⟨[], net, [], [], []⟩ ∨ r.supers ≠ [] ∧ (deleteSupers net r.supers).series .line ≠ [] ∧
      ∃ qs, r.supers.mapM (superEq net) = .ok qs ∧ r.net = addedNet net r.supers (addedSt net r.supers qs initBus initLine) ∧
        r.inter = (addedSt net r.supers qs initBus initLine).inter.zipIdx.map (fun (p : ((Series × Nat) × Int × Int) × Nat) =>
          (⟨p.1.1.2, oldEnds net p.1.1, ((deleteSupers net r.supers).series .line).length + p.2, [p.1.2.1, p.1.2.2]⟩ : BranchMap)) ∧
        (∃ pres, ((deleteSupers net r.supers).series .line).zipIdx.mapM preservedOf = .ok pres ∧ r.preserved = pres ++ r.inter) ∧
        ((superEls r.supers .line).map (fun (k : Nat) => (Series.line, k)) ++ (superEls r.supers .trafo).map (fun (k : Nat) => (Series.trafo, k))).mapM (removedOf net) =
          .ok r.removed) := by
  unfold reduceNetwork at h
  split at h
  · cases h
  · rename_i hv
    refine ⟨not_not.1 hv, ?_⟩
    obtain ⟨supers, h1, h⟩ := except_bind_ok.1 h
    split at h
    · rename_i h0
      cases h
      subst h0
      exact ⟨h1, Or.inl ⟨rfl, rfl⟩⟩
    · rename_i h0
      obtain ⟨qs, h2, h⟩ := except_bind_ok.1 h
      obtain ⟨rem, h3, h⟩ := except_bind_ok.1 h
      obtain ⟨w, h4, h⟩ := except_bind_ok.1 h
      cases h
      refine ⟨h1, Or.inr ⟨h0, ?_⟩⟩
      unfold addArtificial at h4
      split at h4
      · cases h4
      · split at h4
        · cases h4
        · rename_i h5
          obtain ⟨pres, h6, h4⟩ := except_bind_ok.1 h4
          cases h4
          exact ⟨h5, qs, h2, rfl, rfl, ⟨pres, h6, rfl⟩, h3⟩

theorem superEq_ok {net : TpNet} {S : Supernode} {q : SuperEq} (h : superEq net S = .ok q) : S.coupling ≠ [] ∧
    q = ⟨(S.bus.map (busVal net (·.pd))).sum, (S.bus.map (busVal net (·.qd))).sum, (S.bus.map (busVal net (·.loss))).sum + (S.els.map (elLoss net)).sum⟩ := by
  unfold superEq at h
  split at h
  · cases h
  · rename_i hc
    cases h
    exact ⟨hc, rfl⟩

/-- a coupling bus is not deleted -/
theorem coupling_remains {net : TpNet} {vol : Rat} {tw : Option Rat} (hok : NetOk net) {supers : List Supernode} (hs : SupersOf (netView net vol tw) supers)
    {S : Supernode} (hS : S ∈ supers) {c : Nat} (hc : c ∈ S.coupling) :
    ∃ b, net.buses[c]? = some b ∧ (netView net vol tw).low c = false ∧ oldBusNo net c = b.number ∧ b ∈ deleteAt net.buses (supers.flatMap (·.bus)) := by
  have h1 : some c ∈ S.coupling.map some := List.mem_map_of_mem hc
  rw [hs.coupling S hS, List.mem_map] at h1
  obtain ⟨e, _, h2⟩ := h1
  obtain ⟨h3, h4⟩ := highEnd_some h2
  have h5 := ends_lt (netView_ok hok vol tw) h3
  have h6 : net.buses[c]? = some (net.buses[c]'h5) := List.getElem?_eq_getElem h5
  refine ⟨_, h6, h4, by simp [oldBusNo, h6], ?_⟩
  rw [mem_deleteAt]
  refine ⟨c, h6, ?_⟩
  intro hm
  obtain ⟨T, hT, hx⟩ := List.mem_flatMap.1 hm
  have := ((hs.mem c).1 ⟨T, hT, hx⟩).2
  rw [h4] at this
  cases this

theorem deleteAt_nodup {α β : Type} {l : List α} {f : α → β} {pos : List Nat} (h : (l.map f).Nodup) : ((deleteAt l pos).map f).Nodup := by
  apply List.Nodup.sublist _ h
  apply List.Sublist.map
  unfold deleteAt
  conv_rhs => rw [← List.zipIdx_map_fst 0 l]
  exact List.filter_sublist.map _

/-- sums over the pairs of supernodes and equivalents -/
theorem zip_eq_sum {net : TpNet} {supers : List Supernode} {qs : List SuperEq} (h : List.Forall₂ (fun S q => superEq net S = .ok q) supers qs)
    (g : SuperEq → Rat) (k : Supernode → Rat) (hg : ∀ S q, superEq net S = .ok q → g q = k S) :
    ((supers.zip qs).map (fun p => g p.2)).sum = (supers.map k).sum := by
  induction h with
  | nil => rfl
  | cons hq _ ih => rw [List.zip_cons_cons, List.map_cons, List.sum_cons, ih, List.map_cons, List.sum_cons, hg _ _ hq]

theorem supers_lt {net : TpNet} {vol : Rat} {tw : Option Rat} {supers : List Supernode} (hs : SupersOf (netView net vol tw) supers) :
    ∀ x ∈ supers.flatMap (·.bus), x < net.buses.length := by
  intro x hx
  obtain ⟨S, hS, hm⟩ := List.mem_flatMap.1 hx
  exact ((hs.mem x).1 ⟨S, hS, hm⟩).1

/-- a quantity of the buses that the reduction adds up is preserved in total -/
theorem reduce_total {limit : Nat} {net : TpNet} {vol : Rat} {tw : Option Rat} {initBus initLine : Option Int} {r : RdResult} (hok : NetOk net)
    (f : TpBus → Rat) (q : SuperEq → Rat) (extra : Supernode → Rat)
    (hf : ∀ (b : TpBus) (s : Series → List Nat) (g : GenT → List Nat), f { b with serPos := s, genPos := g } = f b)
    (hart : ∀ (S : Supernode) (e : SuperEq) num first gens, f (artBus S e num first gens) = q e)
    (htake : ∀ (S : Supernode) (e : SuperEq) num gens b, b.number = num → f (takeOver S e num gens b) = q e + f b)
    (hq : ∀ S e, superEq net S = .ok e → q e = (S.bus.map (busVal net f)).sum + extra S)
    (h : reduceNetwork limit net vol tw initBus initLine = .ok r) :
    busTotal r.net f = busTotal net f + (r.supers.map extra).sum := by
  obtain ⟨_, h1, h2⟩ := reduce_parts h
  have hs := findSupernodes_of_ok (netView_ok hok vol tw) h1
  rcases h2 with ⟨h0, h2⟩ | ⟨h0, hl, qs, h3, h4, _⟩
  · rw [h2]
    simp
  · have hF := (mapM_ok_iff _ _ _).1 h3
    unfold busTotal
    rw [h4]
    unfold addedNet addedRaw
    rw [updateAll_map _ f hf]
    unfold addedSt
    have hnum : ((deleteSupers net r.supers).buses.map (·.number)).Nodup := by
      rw [deleteSupers_map net r.supers (·.number) (fun _ _ _ => rfl)]
      exact deleteAt_nodup hok.numbers
    have := addSupers_total (net := net) f q (r.supers.zip qs) hart htake
      ⟨(deleteSupers net r.supers).buses, [], [], [], (deleteSupers net r.supers).gens, firstBusNo net initBus, firstLineNo net initLine⟩ hnum (by
        intro p hp
        have hS : p.1 ∈ r.supers := (List.of_mem_zip hp).1
        have hne : p.1.coupling ≠ [] := by
          obtain ⟨i, hi, hpi⟩ := List.mem_iff_getElem.1 hp
          rw [List.getElem_zip] at hpi
          subst hpi
          have hi1 : i < r.supers.length := by rw [List.length_zip] at hi; omega
          have hi2 : i < qs.length := by rw [List.length_zip] at hi; omega
          exact (superEq_ok ((List.forall₂_iff_get.1 hF).2 i hi1 hi2)).1
        obtain ⟨c, cs, hc⟩ := List.exists_cons_of_ne_nil hne
        refine ⟨c, by rw [hc]; rfl, ?_⟩
        obtain ⟨b, _, _, hb2, hb3⟩ := coupling_remains hok hs hS (c := c) (by rw [hc]; exact List.mem_cons_self)
        simp only
        rw [deleteSupers_map net r.supers (·.number) (fun _ _ _ => rfl), hb2]
        exact List.mem_map_of_mem hb3)
    simp only at this
    rw [this, List.append_nil, deleteSupers_map net r.supers f hf]
    rw [deleteAt_sum net.buses f (r.supers.flatMap (·.bus)) hs.nodup (supers_lt hs) (busVal net f) (fun i a hi => busVal_of hi)]
    rw [zip_eq_sum hF q (fun S => (S.bus.map (busVal net f)).sum + extra S) hq, sum_flatMap', List.sum_map_add]
    ring

/-- **C123**.  Reducing a network with unique bus numbers to a voltage level, whenever it succeeds, changes neither the total active peak demand nor the
total reactive peak demand. -/
theorem C123_demand (limit : Nat) (net : TpNet) (vol : Rat) (tw : Option Rat) (initBus initLine : Option Int) (r : RdResult) (hok : NetOk net)
    (h : reduceNetwork limit net vol tw initBus initLine = .ok r) :
    busTotal r.net (·.pd) = busTotal net (·.pd) ∧ busTotal r.net (·.qd) = busTotal net (·.qd) := by
  constructor
  · have := reduce_total hok (·.pd) (·.pd) (fun _ => 0) (fun _ _ _ => rfl) (fun _ _ _ _ _ => rfl) (by
      intro S e num gens b hb
      simp [takeOver, hb]) (by
      intro S e he
      rw [(superEq_ok he).2]
      simp) h
    rw [this]
    simp
  · have := reduce_total hok (·.qd) (·.qd) (fun _ => 0) (fun _ _ _ => rfl) (fun _ _ _ _ _ => rfl) (by
      intro S e num gens b hb
      simp [takeOver, hb]) (by
      intro S e he
      rw [(superEq_ok he).2]
      simp) h
    rw [this]
    simp

/-! ## losses -/

theorem updateAll_series {β : Type} (net : TpNet) (s : Series) (f : TpLine → β) (hf : ∀ (l : TpLine) (p : List Nat), f { l with busPos := p } = f l) :
    ((updateAll net).series s).map f = (net.series s).map f := by
  simp only [updateAll, updGenPos, updSerPos, updBusPos, List.map_map]
  apply List.map_congr_left
  intro l _
  exact hf l _

theorem deleteAt_map {α β : Type} (l : List α) (f : α → β) (pos : List Nat) : deleteAt (l.map f) pos = (deleteAt l pos).map f := by
  unfold deleteAt
  rw [List.zipIdx_map, List.filter_map, List.map_map, List.map_map]
  rfl

theorem deleteSupers_series {β : Type} (net : TpNet) (supers : List Supernode) (s : Series) (f : TpLine → β)
    (hf : ∀ (l : TpLine) (p : List Nat), f { l with busPos := p } = f l) :
    ((deleteSupers net supers).series s).map f = (deleteAt (net.series s) (superEls supers s)).map f := by
  have e : ∀ t, ((deleteBuses net (supers.flatMap (·.bus))).series t).map f = (net.series t).map f := by
    intro t
    simp only [deleteBuses, updBusPos, List.map_map]
    apply List.map_congr_left
    intro l _
    exact hf l _
  unfold deleteSupers
  cases s with
  | line =>
    have : (deleteSeries .trafo (deleteSeries .line (deleteBuses net (supers.flatMap (·.bus))) (superEls supers .line)) (superEls supers .trafo)).series .line =
        deleteAt ((deleteBuses net (supers.flatMap (·.bus))).series .line) (superEls supers .line) := rfl
    rw [this, ← deleteAt_map, e, deleteAt_map]
  | trafo =>
    have : (deleteSeries .trafo (deleteSeries .line (deleteBuses net (supers.flatMap (·.bus))) (superEls supers .line)) (superEls supers .trafo)).series .trafo =
        deleteAt ((deleteBuses net (supers.flatMap (·.bus))).series .trafo) (superEls supers .trafo) := rfl
    rw [this, ← deleteAt_map, e, deleteAt_map]

theorem mem_superEls {supers : List Supernode} {s : Series} {k : Nat} : k ∈ superEls supers s ↔ ∃ S ∈ supers, (s, k) ∈ S.els := by
  unfold superEls
  simp only [List.mem_flatMap, List.mem_map, List.mem_filter, decide_eq_true_eq]
  constructor
  · rintro ⟨S, hS, e, ⟨he, h1⟩, h2⟩
    refine ⟨S, hS, ?_⟩
    rw [← h1, ← h2]
    exact he
  · rintro ⟨S, hS, he⟩
    exact ⟨S, hS, (s, k), ⟨he, rfl⟩, rfl⟩

theorem superEls_nodup {v : RdView} {supers : List Supernode} (hs : SupersOf v supers) (s : Series) : (superEls supers s).Nodup := by
  have h : superEls supers s = ((supers.flatMap (·.els)).filter (fun e => decide (e.1 = s))).map (·.2) := by
    unfold superEls
    rw [List.filter_flatMap, List.map_flatMap]
  rw [h]
  refine List.Nodup.map_on ?_ (hs.elNodup.filter _)
  intro a ha b hb hab
  have h1 := (List.mem_filter.1 ha).2
  have h2 := (List.mem_filter.1 hb).2
  simp only [decide_eq_true_eq] at h1 h2
  exact Prod.ext (h1.trans h2.symm) hab

theorem superEls_lt {net : TpNet} {vol : Rat} {tw : Option Rat} {supers : List Supernode} (hs : SupersOf (netView net vol tw) supers) {s : Series} :
    ∀ k ∈ superEls supers s, k < (net.series s).length := by
  intro k hk
  obtain ⟨S, hS, he⟩ := mem_superEls.1 hk
  obtain ⟨x, hx, _⟩ := (hs.elMem S hS (s, k)).1 he
  simp only [netView] at hx
  cases h : (net.series s)[k]? with
  | none => rw [h] at hx; simp at hx
  | some l => exact (List.getElem?_eq_some_iff.1 h).1

theorem elLoss_split (net : TpNet) (supers : List Supernode) :
    (supers.map (fun S => (S.els.map (elLoss net)).sum)).sum =
      ((superEls supers .line).map (fun k => elLoss net (.line, k))).sum + ((superEls supers .trafo).map (fun k => elLoss net (.trafo, k))).sum := by
  have key : ∀ l : List (Series × Nat), (l.map (elLoss net)).sum =
      (((l.filter (fun e => decide (e.1 = .line))).map (·.2)).map (fun k => elLoss net (.line, k))).sum +
      (((l.filter (fun e => decide (e.1 = .trafo))).map (·.2)).map (fun k => elLoss net (.trafo, k))).sum := by
    intro l
    induction l with
    | nil => simp
    | cons e l ih =>
      obtain ⟨s, k⟩ := e
      rw [List.map_cons, List.sum_cons, ih]
      cases s <;> simp <;> ring
  unfold superEls
  rw [sum_flatMap', sum_flatMap', ← List.sum_map_add]
  congr 1
  apply List.map_congr_left
  intro S _
  exact key S.els

/-- the losses of the artificial lines of a supernode -/
def artLoss (net : TpNet) (S : Supernode) : Rat := if 1 < S.coupling.length then (S.art.map (elLoss net)).sum else 0

theorem artLines_loss (net : TpNet) (S : Supernode) (num first : Int) (h : S.coupling.length = S.art.length) :
    ((artLines net S num first).map (fun l => l.par.loss.getD 0)).sum = (S.art.map (elLoss net)).sum := by
  unfold artLines
  rw [List.map_map]
  have h1 : (S.coupling.zip S.art).map (fun p => elLoss net p.2) = S.art.map (elLoss net) := by
    have : S.art = (S.coupling.zip S.art).map Prod.snd := (List.map_snd_zip (by omega)).symm
    conv_rhs => rw [this]
    rw [List.map_map]
    rfl
  rw [← h1]
  congr 1
  have h2 : (S.coupling.zip S.art).map (fun p => elLoss net p.2) = ((S.coupling.zip S.art).zipIdx.map Prod.fst).map (fun p => elLoss net p.2) := by
    rw [List.zipIdx_map_fst]
  rw [h2, List.map_map]
  apply List.map_congr_left
  intro p _
  simp only [Function.comp_apply, oldPar, elLoss]
  cases (net.series p.1.2.1)[p.1.2.2]? <;> rfl

theorem addSupers_lines_loss (net : TpNet) : ∀ (ps : List (Supernode × SuperEq)) (st : AddSt), (∀ p ∈ ps, p.1.coupling.length = p.1.art.length) →
    ((ps.foldl (addSuper net) st).newLines.map (fun l => l.par.loss.getD 0)).sum =
      (st.newLines.map (fun l => l.par.loss.getD 0)).sum + (ps.map (fun p => artLoss net p.1)).sum := by
  intro ps
  induction ps with
  | nil => intro st _; simp
  | cons p ps ih =>
    intro st h
    rw [List.foldl_cons, ih _ (fun q hq => h q (List.mem_cons_of_mem _ hq)), List.map_cons, List.sum_cons]
    have : ((addSuper net st p).newLines.map (fun l => l.par.loss.getD 0)).sum = (st.newLines.map (fun l => l.par.loss.getD 0)).sum + artLoss net p.1 := by
      unfold addSuper artLoss
      split
      · rw [List.map_append, List.sum_append, artLines_loss net p.1 _ _ (h p List.mem_cons_self)]
      · cases p.1.coupling <;> simp
    rw [this]
    ring

theorem coupling_length {v : RdView} {supers : List Supernode} (hs : SupersOf v supers) {S : Supernode} (hS : S ∈ supers) : S.coupling.length = S.art.length := by
  have := congrArg List.length (hs.coupling S hS)
  simpa using this

/-- **C124** (violated: the losses of some elements are counted twice).  After a successful reduction the total of the non-technical losses of buses, lines and
transformers is the total before plus, for every supernode with more than one coupling bus, the losses of the elements replaced by artificial lines: these are both added to
the artificial bus and copied to the artificial line. -/
theorem C124_losses_partial (limit : Nat) (net : TpNet) (vol : Rat) (tw : Option Rat) (initBus initLine : Option Int) (r : RdResult) (hok : NetOk net)
    (h : reduceNetwork limit net vol tw initBus initLine = .ok r) :
    lossTotal r.net = lossTotal net + (r.supers.map (fun S => if 1 < S.coupling.length then (S.art.map (elLoss net)).sum else 0)).sum := by
  have hbus := reduce_total hok (·.loss) (·.loss) (fun S => (S.els.map (elLoss net)).sum) (fun _ _ _ => rfl) (fun _ _ _ _ _ => rfl) (by
      intro S e num gens b hb
      simp [takeOver, hb]) (by
      intro S e he
      rw [(superEq_ok he).2]) h
  obtain ⟨_, h1, h2⟩ := reduce_parts h
  have hs := findSupernodes_of_ok (netView_ok hok vol tw) h1
  rcases h2 with ⟨h0, h2⟩ | ⟨h0, hl, qs, h3, h4, _⟩
  · rw [h2]
    simp
  · have hF := (mapM_ok_iff _ _ _).1 h3
    have hel : ∀ s : Series, ((net.series s).map (fun l => l.par.loss.getD 0)).sum =
        (((deleteSupers net r.supers).series s).map (fun l => l.par.loss.getD 0)).sum + ((superEls r.supers s).map (fun k => elLoss net (s, k))).sum := by
      intro s
      rw [deleteSupers_series net r.supers s _ (fun _ _ => rfl)]
      exact deleteAt_sum _ _ _ (superEls_nodup hs s) (superEls_lt hs) _ (fun i a hi => by simp [elLoss, hi])
    have hline : ((r.net.series .line).map (fun l => l.par.loss.getD 0)).sum =
        (((deleteSupers net r.supers).series .line).map (fun l => l.par.loss.getD 0)).sum + (r.supers.map (artLoss net)).sum := by
      rw [h4]
      unfold addedNet addedRaw
      rw [updateAll_series _ _ _ (fun _ _ => rfl)]
      simp only [List.map_append, List.sum_append]
      unfold addedSt
      rw [addSupers_lines_loss net _ _ (fun p hp => coupling_length hs (List.of_mem_zip hp).1)]
      simp only [List.map_nil, List.sum_nil, zero_add]
      congr 2
      have : r.supers = (r.supers.zip qs).map Prod.fst := (List.map_fst_zip (by rw [hF.length_eq])).symm
      conv_rhs => rw [this]
      rw [List.map_map]
      rfl
    have htrafo : ((r.net.series .trafo).map (fun l => l.par.loss.getD 0)).sum =
        (((deleteSupers net r.supers).series .trafo).map (fun l => l.par.loss.getD 0)).sum := by
      rw [h4]
      unfold addedNet addedRaw
      rw [updateAll_series _ _ _ (fun _ _ => rfl)]
    show lossTotal r.net = lossTotal net + (r.supers.map (artLoss net)).sum
    unfold lossTotal
    rw [hbus, hline, htrafo, hel .line, hel .trafo, elLoss_split]
    ring

/-! ## numbers -/

theorem powAbove_gt (m : Int) : ∀ (f : Nat) (a : Int), 0 < a → m < a + f → m < powAbove m f a := by
  intro f
  induction f with
  | zero => intro a _ h; simpa [powAbove] using h
  | succ f ih =>
    intro a ha h
    unfold powAbove
    split
    · exact ih (a * 10) (by omega) (by push_cast at h; omega)
    · omega

theorem le_maxOf : ∀ (l : List Int) (x : Int), x ∈ l → x ≤ maxOf l := by
  intro l
  induction l with
  | nil => intro x h; simp at h
  | cons a l ih =>
    intro x hx
    cases l with
    | nil =>
      rw [List.mem_singleton] at hx
      rw [hx]
      exact le_refl _
    | cons b l =>
      show x ≤ max a (maxOf (b :: l))
      rcases List.mem_cons.1 hx with rfl | hx
      · exact le_max_left _ _
      · exact le_trans (ih x hx) (le_max_right _ _)

theorem powAbove_max (l : List Int) (x : Int) (hx : x ∈ l) : x < powAbove (maxOf l) ((maxOf l).toNat + 1) 1 := by
  refine lt_of_le_of_lt (le_maxOf l x hx) (powAbove_gt _ _ _ (by omega) ?_)
  push_cast
  omega

/-- the number of supernodes with several coupling buses -/
def multiCount (supers : List Supernode) : Nat := (supers.filter (fun S => decide (1 < S.coupling.length))).length

/-- the number of artificial lines -/
def artCount (supers : List Supernode) : Nat := ((supers.filter (fun S => decide (1 < S.coupling.length))).map (fun S => S.coupling.length)).sum

theorem range_shift (a : Int) (m n : Nat) : (List.range m).map (fun (k : Nat) => a + (k : Int)) ++ (List.range n).map (fun (k : Nat) => a + (m : Int) + (k : Int)) =
    (List.range (m + n)).map (fun (k : Nat) => a + (k : Int)) := by
  rw [List.range_add, List.map_append, List.map_map]
  congr 1
  apply List.map_congr_left
  intro k _
  simp only [Function.comp_apply]
  push_cast
  ring

theorem artLines_numbers (net : TpNet) (S : Supernode) (num first : Int) (h : S.coupling.length = S.art.length) :
    (artLines net S num first).map (·.number) = (List.range S.coupling.length).map (fun (k : Nat) => first + (k : Int)) := by
  unfold artLines
  rw [List.map_map]
  have : (S.coupling.zip S.art).zipIdx.map Prod.snd = List.range S.coupling.length := by
    rw [List.zipIdx_map_snd, List.length_zip, h, Nat.min_self, List.range_eq_range']
  rw [← this, List.map_map]
  rfl

/-- the numbers after the loop -/
theorem addSupers_numbers (net : TpNet) : ∀ (ps : List (Supernode × SuperEq)) (st : AddSt), (∀ p ∈ ps, p.1.coupling.length = p.1.art.length) →
    (ps.foldl (addSuper net) st).nodes.map (·.number) = st.nodes.map (·.number) ∧
    (ps.foldl (addSuper net) st).newNodes.map (·.number) = st.newNodes.map (·.number) ++
      (List.range (multiCount (ps.map (·.1)))).map (fun (k : Nat) => st.nextBus + (k : Int)) ∧
    (ps.foldl (addSuper net) st).newLines.map (·.number) = st.newLines.map (·.number) ++
      (List.range (artCount (ps.map (·.1)))).map (fun (k : Nat) => st.nextLine + (k : Int)) := by
  intro ps
  induction ps with
  | nil => intro st _; simp [multiCount, artCount]
  | cons p ps ih =>
    intro st h
    obtain ⟨i1, i2, i3⟩ := ih (addSuper net st p) (fun q hq => h q (List.mem_cons_of_mem _ hq))
    rw [List.foldl_cons]
    by_cases hm : 1 < p.1.coupling.length
    · have e1 : (addSuper net st p).nextBus = st.nextBus + (1 : Nat) := by simp [addSuper, hm]
      have e2 : (addSuper net st p).nextLine = st.nextLine + (p.1.coupling.length : Nat) := by simp [addSuper, hm]
      have e3 : multiCount ((p :: ps).map (·.1)) = 1 + multiCount (ps.map (·.1)) := by simp [multiCount, hm]; omega
      have e4 : artCount ((p :: ps).map (·.1)) = p.1.coupling.length + artCount (ps.map (·.1)) := by simp [artCount, hm]
      refine ⟨?_, ?_, ?_⟩
      · rw [i1]
        simp [addSuper, hm]
      · rw [i2, e1, e3, ← range_shift]
        simp [addSuper, hm, artBus]
      · rw [i3, e2, e4, ← range_shift]
        have : (addSuper net st p).newLines = st.newLines ++ artLines net p.1 st.nextBus st.nextLine := by simp [addSuper, hm]
        rw [this, List.map_append, artLines_numbers net p.1 _ _ (h p List.mem_cons_self), List.append_assoc]
    · have e1 : (addSuper net st p).nextBus = st.nextBus := by
        simp only [addSuper, if_neg hm]
        cases p.1.coupling <;> rfl
      have e2 : (addSuper net st p).nextLine = st.nextLine := by
        simp only [addSuper, if_neg hm]
        cases p.1.coupling <;> rfl
      have e3 : multiCount ((p :: ps).map (·.1)) = multiCount (ps.map (·.1)) := by simp [multiCount, hm]
      have e4 : artCount ((p :: ps).map (·.1)) = artCount (ps.map (·.1)) := by simp [artCount, hm]
      rw [i1, i2, i3, e1, e2, e3, e4]
      simp only [addSuper, if_neg hm]
      cases p.1.coupling with
      | nil => exact ⟨rfl, rfl, rfl⟩
      | cons c cs =>
        refine ⟨?_, rfl, rfl⟩
        simp only [List.map_map]
        apply List.map_congr_left
        intro b _
        simp only [Function.comp_apply, takeOver]
        split <;> rfl

/-- the buses that are not deleted are those at or above the level -/
theorem remaining_buses {net : TpNet} {vol : Rat} {tw : Option Rat} {supers : List Supernode} (hs : SupersOf (netView net vol tw) supers) :
    deleteAt net.buses (supers.flatMap (·.bus)) = net.buses.filter (fun b => decide (vol ≤ b.volt ∧ some b.volt ≠ tw)) := by
  unfold deleteAt
  conv_rhs => rw [← List.zipIdx_map_fst 0 net.buses]
  rw [List.filter_map]
  congr 1
  apply List.filter_congr
  intro p hp
  rw [List.mem_zipIdx_iff_getElem?] at hp
  simp only [Function.comp_apply]
  have hlt := (List.getElem?_eq_some_iff.1 hp).1
  have : p.2 ∈ supers.flatMap (·.bus) ↔ (netView net vol tw).low p.2 = true := by
    rw [List.mem_flatMap]
    have := hs.mem p.2
    simp only [show (netView net vol tw).nBus = net.buses.length from rfl, hlt, true_and] at this
    exact this
  rw [decide_eq_decide, this]
  simp only [netView, hp]
  simp

/-- **C125**.  When the user gives no first number, a successful reduction numbers the artificial buses and lines consecutively from numbers above all
those in use: the buses of the reduced network are the buses at or above the level, in their order, followed by one new bus per supernode with several coupling
buses, and the lines are the remaining lines followed by one new line per coupling element of these supernodes; bus numbers remain unique, and so do line
numbers if they were. -/
theorem C125_numbers (limit : Nat) (net : TpNet) (vol : Rat) (tw : Option Rat) (r : RdResult) (hok : NetOk net)
    (h : reduceNetwork limit net vol tw none none = .ok r) :
    ∃ (first firstLine : Int) (rest : List Int),
      (∀ b ∈ net.buses, b.number < first) ∧ (∀ l ∈ net.series .line, l.number < firstLine) ∧
      r.net.buses.map (·.number) = (net.buses.filter (fun b => decide (vol ≤ b.volt ∧ some b.volt ≠ tw))).map (·.number) ++
        (List.range (r.supers.filter (fun S => decide (1 < S.coupling.length))).length).map (fun (k : Nat) => first + (k : Int)) ∧
      (r.net.buses.map (·.number)).Nodup ∧
      rest.Sublist ((net.series .line).map (·.number)) ∧
      (r.net.series .line).map (·.number) = rest ++
        (List.range ((r.supers.filter (fun S => decide (1 < S.coupling.length))).map (fun S => S.coupling.length)).sum).map (fun (k : Nat) => firstLine + (k : Int)) ∧
      (((net.series .line).map (·.number)).Nodup → ((r.net.series .line).map (·.number)).Nodup) := by
  obtain ⟨_, h1, h2⟩ := reduce_parts h
  have hs := findSupernodes_of_ok (netView_ok hok vol tw) h1
  have f1 : ∀ b ∈ net.buses, b.number < firstBusNo net none := fun b hb => powAbove_max _ _ (List.mem_map_of_mem hb)
  have f2 : ∀ l ∈ net.series .line, l.number < firstLineNo net none := fun l hl => powAbove_max _ _ (List.mem_map_of_mem hl)
  have key : ∀ (rest all : List Int) (first : Int) (n : Nat), rest.Sublist all → (∀ x ∈ all, x < first) → all.Nodup →
      (rest ++ (List.range n).map (fun (k : Nat) => first + (k : Int))).Nodup := by
    intro rest all first n hsub hlt hnd
    rw [List.nodup_append]
    refine ⟨hnd.sublist hsub, ?_, ?_⟩
    · apply List.Nodup.map _ List.nodup_range
      intro a b hab
      simp only at hab
      omega
    · intro a ha b hb hab
      obtain ⟨k, _, rfl⟩ := List.mem_map.1 hb
      have := hlt a (hsub.subset ha)
      omega
  rcases h2 with ⟨h0, h2⟩ | ⟨h0, hl, qs, h3, h4, _⟩
  · have hnil : r.supers = [] := h0
    have hrem := remaining_buses hs
    rw [hnil] at hrem
    have hall : net.buses.filter (fun b => decide (vol ≤ b.volt ∧ some b.volt ≠ tw)) = net.buses := by
      rw [← hrem]
      unfold deleteAt
      simp
    refine ⟨firstBusNo net none, firstLineNo net none, (net.series .line).map (·.number), f1, f2, ?_, ?_, List.Sublist.refl _, ?_, ?_⟩
    · rw [hall, h2]
      simp
    · rw [h2]
      exact hok.numbers
    · rw [h2]
      simp
    · rw [h2]
      exact id
  · have hF := (mapM_ok_iff _ _ _).1 h3
    have hfst : (r.supers.zip qs).map (·.1) = r.supers := List.map_fst_zip (by rw [hF.length_eq])
    obtain ⟨i1, i2, i3⟩ := addSupers_numbers net (r.supers.zip qs)
      ⟨(deleteSupers net r.supers).buses, [], [], [], (deleteSupers net r.supers).gens, firstBusNo net none, firstLineNo net none⟩
      (fun p hp => coupling_length hs (List.of_mem_zip hp).1)
    rw [hfst] at i2 i3
    have hb : r.net.buses.map (·.number) = (net.buses.filter (fun b => decide (vol ≤ b.volt ∧ some b.volt ≠ tw))).map (·.number) ++
        (List.range (multiCount r.supers)).map (fun (k : Nat) => firstBusNo net none + (k : Int)) := by
      rw [h4]
      unfold addedNet addedRaw
      rw [updateAll_map _ _ (fun _ _ _ => rfl)]
      unfold addedSt
      rw [List.map_append, i1, i2]
      simp only [List.map_nil, List.nil_append]
      rw [deleteSupers_map net r.supers (·.number) (fun _ _ _ => rfl), remaining_buses hs]
    have hlines : (r.net.series .line).map (·.number) = (deleteAt (net.series .line) (superEls r.supers .line)).map (·.number) ++
        (List.range (artCount r.supers)).map (fun (k : Nat) => firstLineNo net none + (k : Int)) := by
      rw [h4]
      unfold addedNet addedRaw
      rw [updateAll_series _ _ _ (fun _ _ => rfl)]
      unfold addedSt
      simp only [List.map_append]
      rw [i3, deleteSupers_series net r.supers .line _ (fun _ _ => rfl)]
      rfl
    have hsub : ((deleteAt (net.series .line) (superEls r.supers .line)).map (·.number)).Sublist ((net.series .line).map (·.number)) := by
      apply List.Sublist.map
      unfold deleteAt
      conv_rhs => rw [← List.zipIdx_map_fst 0 (net.series .line)]
      exact List.filter_sublist.map _
    refine ⟨firstBusNo net none, firstLineNo net none, _, f1, f2, hb, ?_, hsub, hlines, ?_⟩
    · rw [hb]
      refine key _ (net.buses.map (·.number)) _ _ (List.filter_sublist.map _) ?_ hok.numbers
      intro x hx
      obtain ⟨b, hb, rfl⟩ := List.mem_map.1 hx
      exact f1 b hb
    · intro hnd
      rw [hlines]
      refine key _ _ _ _ hsub ?_ hnd
      intro x hx
      obtain ⟨l, hl, rfl⟩ := List.mem_map.1 hx
      exact f2 l hl

end Pyensys
