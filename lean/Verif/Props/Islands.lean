import Verif.Props.ReduceBranches

/-!
# Islands and isolated buses, deletion of objects (C130-C134)
-/

namespace Pyensys

/-! ## specification -/

/-- a network whose tables fit, by numbers and by positions: numbers of buses and of elements of a type are unique; a series element names two different buses by number
and by position; a bus names its elements by number and by position -/
structure TpOk (net : TpNet) : Prop where
  numbers : (net.buses.map (·.number)).Nodup
  serNumbers : ∀ s, ((net.series s).map (·.number)).Nodup
  ends : ∀ s, ∀ l ∈ net.series s, ∃ x y bx by', x ≠ y ∧ net.buses[x]? = some bx ∧ net.buses[y]? = some by' ∧ l.busPos = [x, y] ∧
    (l.buses = [bx.number, by'.number] ∨ l.buses = [by'.number, bx.number])
  serNo : ∀ s, ∀ b ∈ net.buses, (b.serNo s).Nodup
  listedNo : ∀ s, ∀ l ∈ net.series s, ∀ b ∈ net.buses, l.number ∈ b.serNo s ↔ b.number ∈ l.buses
  listed : ∀ (s : Series) (e : Nat) (l : TpLine), (net.series s)[e]? = some l → ∀ b ∈ net.buses, e ∈ b.serPos s ↔ b.number ∈ l.buses
  range : ∀ s, ∀ b ∈ net.buses, ∀ e ∈ b.serPos s, e < (net.series s).length

/-- what networkx computes: the components hold every position once, no edge leaves a component, the positions of a component are joined by edges -/
structure CompOk (n : Nat) (es : List (Nat × Nat)) (comps : List (List Nat)) : Prop where
  perm : comps.flatten.Perm (List.range n)
  edges : ∀ e ∈ es, ∀ C ∈ comps, e.1 ∈ C ↔ e.2 ∈ C
  connected : ∀ C ∈ comps, ∀ x ∈ C, ∀ y ∈ C, Relation.ReflTransGen (fun a b => (a, b) ∈ es ∨ (b, a) ∈ es) x y

/-! ## lemmas -/

theorem nodup_eraseDups : ∀ (n : Nat) (l : List Nat), l.length ≤ n → l.eraseDups.Nodup := by
  intro n
  induction n with
  | zero =>
    intro l h
    have : l = [] := List.length_eq_zero_iff.1 (by omega)
    subst this
    simp
  | succ n ih =>
    intro l h
    cases l with
    | nil => simp
    | cons a l =>
      rw [List.eraseDups_cons, List.nodup_cons]
      constructor
      · rw [List.mem_eraseDups, List.mem_filter]
        simp
      · apply ih
        have := List.length_filter_le (fun b => !b == a) l
        rw [List.length_cons] at h
        omega

theorem eraseDups_of_nodup : ∀ (n : Nat) (l : List Nat), l.length ≤ n → l.Nodup → l.eraseDups = l := by
  intro n
  induction n with
  | zero =>
    intro l h _
    have : l = [] := List.length_eq_zero_iff.1 (by omega)
    subst this
    simp
  | succ n ih =>
    intro l h hnd
    cases l with
    | nil => simp
    | cons a l =>
      rw [List.nodup_cons] at hnd
      rw [List.length_cons] at h
      have hf : l.filter (fun b => !b == a) = l := by
        rw [List.filter_eq_self]
        intro b hb
        have : b ≠ a := fun e => hnd.1 (e ▸ hb)
        simp [this]
      rw [List.eraseDups_cons, hf, ih l (by omega) hnd.2]

theorem number_inj {net : TpNet} (h : (net.buses.map (·.number)).Nodup) {x y : Nat} {bx by' : TpBus} (hx : net.buses[x]? = some bx) (hy : net.buses[y]? = some by')
    (he : bx.number = by'.number) : x = y := by
  have l1 := (List.getElem?_eq_some_iff.1 hx).1
  have l2 := (List.getElem?_eq_some_iff.1 hy).1
  apply (List.Nodup.getElem_inj_iff h (i := x) (j := y) (hi := by simpa using l1) (hj := by simpa using l2)).1
  rw [List.getElem_map, List.getElem_map, (List.getElem?_eq_some_iff.1 hx).2, (List.getElem?_eq_some_iff.1 hy).2, he]

/-- a bus is at an end of an element by number exactly when it is by position -/
theorem ends_mem {net : TpNet} (h : (net.buses.map (·.number)).Nodup) {l : TpLine}
    (hl : ∃ x y bx by', x ≠ y ∧ net.buses[x]? = some bx ∧ net.buses[y]? = some by' ∧ l.busPos = [x, y] ∧
    (l.buses = [bx.number, by'.number] ∨ l.buses = [by'.number, bx.number])) {z : Nat} {b : TpBus} (hb : net.buses[z]? = some b) :
    b.number ∈ l.buses ↔ z ∈ l.busPos := by
  obtain ⟨x, y, bx, by', _, hx, hy, hp, hn⟩ := hl
  rw [hp]
  have hset : b.number ∈ l.buses ↔ b.number = bx.number ∨ b.number = by'.number := by
    rcases hn with hn | hn <;> rw [hn] <;> simp [or_comm]
  rw [hset]
  simp only [List.mem_cons, List.not_mem_nil, or_false]
  constructor
  · rintro (h1 | h1)
    · exact Or.inl (number_inj h hb hx h1)
    · exact Or.inr (number_inj h hb hy h1)
  · rintro (rfl | rfl)
    · rw [hx] at hb
      cases hb
      exact Or.inl rfl
    · rw [hy] at hb
      cases hb
      exact Or.inr rfl

theorem relPos_mem {keys want : List Int} (hk : keys.Nodup) (hw : want.Nodup) (e : Nat) : e ∈ relPos keys 0 want ↔ ∃ k, keys[e]? = some k ∧ k ∈ want := by
  rw [relPos_eq keys 0 want hk hw]
  simp only [List.mem_map, List.mem_filter, decide_eq_true_eq, Prod.exists, exists_eq_right, List.mem_zipIdx_iff_getElem?]

/-! ## removal of elements out of service -/

theorem deleteAt_outOfService (l : List TpLine) : deleteAt l (outOfService l) = l.filter (fun x => decide (x.status ≠ 0)) := by
  unfold deleteAt
  conv_rhs => rw [← List.zipIdx_map_fst 0 l]
  rw [List.filter_map]
  congr 1
  apply List.filter_congr
  intro p hp
  rw [List.mem_zipIdx_iff_getElem?] at hp
  simp only [Function.comp_apply]
  rw [decide_eq_decide]
  unfold outOfService
  simp only [List.mem_map, List.mem_filter, decide_eq_true_eq, Prod.exists, exists_eq_right, List.mem_zipIdx_iff_getElem?, not_exists, not_and]
  constructor
  · intro h
    exact h p.1 hp
  · intro h x hx
    rw [hp] at hx
    cases hx
    exact h

/-- deleting elements of a type keeps a network consistent -/
theorem deleteSeries_ok {net : TpNet} (h : TpOk net) (s : Series) (pos : List Nat) : TpOk (deleteSeries s net pos) := by
  have hser : ∀ t, (deleteSeries s net pos).series t = if t = s then deleteAt (net.series s) pos else net.series t := by
    intro t
    rfl
  have hsub : ∀ t, ∀ l ∈ (deleteSeries s net pos).series t, l ∈ net.series t := by
    intro t l hl
    rw [hser] at hl
    split at hl
    · rename_i ht
      subst ht
      obtain ⟨i, hi, _⟩ := mem_deleteAt.1 hl
      exact List.mem_of_getElem? hi
    · exact hl
  have hbuses : ∃ w : TpBus → Series → List Nat, (deleteSeries s net pos).buses = net.buses.map (fun b => { b with serPos := w b }) ∧
      ∀ b t, w b t = if t = s then (if (deleteSeries s net pos).series s = [] then [] else relPos (((deleteSeries s net pos).series s).map (·.number)) 0 (b.serNo s)) else b.serPos t := by
    refine ⟨_, rfl, ?_⟩
    intro b t
    simp only [hser, if_true]
  obtain ⟨w, hw1, hw2⟩ := hbuses
  have hnum : (deleteSeries s net pos).buses.map (·.number) = net.buses.map (·.number) := by
    rw [hw1, List.map_map]
    rfl
  have hmem : ∀ b' ∈ (deleteSeries s net pos).buses, ∃ b ∈ net.buses, b' = { b with serPos := w b } := by
    intro b' hb'
    rw [hw1] at hb'
    obtain ⟨b, hb, rfl⟩ := List.mem_map.1 hb'
    exact ⟨b, hb, rfl⟩
  have hnd : ∀ t, (((deleteSeries s net pos).series t).map (·.number)).Nodup := by
    intro t
    rw [hser]
    split
    · rename_i ht
      subst ht
      exact deleteAt_nodup (h.serNumbers _)
    · exact h.serNumbers t
  refine ⟨by rw [hnum]; exact h.numbers, hnd, ?_, ?_, ?_, ?_, ?_⟩
  · intro t l hl
    obtain ⟨x, y, bx, by', h1, h2, h3, h4, h5⟩ := h.ends t l (hsub t l hl)
    refine ⟨x, y, { bx with serPos := w bx }, { by' with serPos := w by' }, h1, ?_, ?_, h4, h5⟩
    · rw [hw1, List.getElem?_map, h2]; rfl
    · rw [hw1, List.getElem?_map, h3]; rfl
  · intro t b' hb'
    obtain ⟨b, hb, rfl⟩ := hmem b' hb'
    exact h.serNo t b hb
  · intro t l hl b' hb'
    obtain ⟨b, hb, rfl⟩ := hmem b' hb'
    exact h.listedNo t l (hsub t l hl) b hb
  · intro t e l hl b' hb'
    obtain ⟨b, hb, rfl⟩ := hmem b' hb'
    simp only
    rw [hw2]
    split
    · rename_i ht
      subst ht
      rw [if_neg (by intro h0; rw [h0] at hl; simp at hl), relPos_mem (hnd t) (h.serNo t b hb), ← h.listedNo t l (hsub t l (List.mem_of_getElem? hl)) b hb]
      rw [List.getElem?_map, hl]
      simp
    · rename_i ht
      rw [hser, if_neg ht] at hl
      exact h.listed t e l hl b hb
  · intro t b' hb' e he
    obtain ⟨b, hb, rfl⟩ := hmem b' hb'
    simp only at he
    rw [hw2] at he
    split at he
    · rename_i ht
      subst ht
      split at he
      · simp at he
      · rw [relPos_mem (hnd t) (h.serNo t b hb)] at he
        obtain ⟨k, hk, _⟩ := he
        have := (List.getElem?_eq_some_iff.1 hk).1
        simpa using this
    · rename_i ht
      rw [hser, if_neg ht]
      exact h.range t b hb e he

/-- what `__delete_disconnected_series_elements` leaves -/
theorem dropSeries_spec {net : TpNet} (h : TpOk net) (s : Series) : TpOk (dropSeries net s) ∧
    (∀ t, (dropSeries net s).series t = if t = s then (net.series s).filter (fun x => decide (x.status ≠ 0)) else net.series t) ∧
    (dropSeries net s).gens = net.gens ∧
    ∃ w : TpBus → Series → List Nat, (dropSeries net s).buses = net.buses.map (fun b => { b with serPos := w b }) := by
  unfold dropSeries
  split
  · rename_i h0
    refine ⟨h, ?_, rfl, fun b => b.serPos, ?_⟩
    · intro t
      split
      · rename_i ht
        subst ht
        rw [← deleteAt_outOfService, h0]
        unfold deleteAt
        simp
      · rfl
    · simp
  · refine ⟨deleteSeries_ok h s _, ?_, rfl, _, rfl⟩
    intro t
    rw [← deleteAt_outOfService]
    rfl

theorem dropDisconnected_spec {net : TpNet} (h : TpOk net) : TpOk (dropDisconnected net) ∧
    (∀ t, (dropDisconnected net).series t = (net.series t).filter (fun x => decide (x.status ≠ 0))) ∧
    (dropDisconnected net).gens = net.gens ∧
    ∃ w : TpBus → Series → List Nat, (dropDisconnected net).buses = net.buses.map (fun b => { b with serPos := w b }) := by
  unfold dropDisconnected
  obtain ⟨a1, a2, a3, w1, a4⟩ := dropSeries_spec h .line
  obtain ⟨b1, b2, b3, w2, b4⟩ := dropSeries_spec a1 .trafo
  refine ⟨b1, ?_, b3.trans a3, fun b => w2 { b with serPos := w1 b }, ?_⟩
  · intro t
    rw [b2, a2]
    cases t with
    | line => rw [if_neg (by simp), a2]; simp
    | trafo => simp
  · rw [b4, a4, List.map_map]
    rfl

/-! ## edges -/

/-- the edges of a consistent network -/
theorem netEdges_spec {net : TpNet} (h : TpOk net) (hne : net.series .line ≠ [] ∨ net.series .trafo ≠ []) :
    ∃ es, netEdges net = .ok es ∧
      (∀ x b, net.buses[x]? = some b → ((∃ e ∈ es, e.1 = x ∨ e.2 = x) ↔ ∃ s, ∃ l ∈ net.series s, b.number ∈ l.buses)) ∧
      (∀ s, ∀ l ∈ net.series s, ∃ e ∈ es, l.busPos = [e.1, e.2]) ∧
      (∀ e ∈ es, ∃ s, ∃ l ∈ net.series s, l.busPos = [e.1, e.2]) := by
  have hall : ∀ l ∈ net.series .line ++ net.series .trafo, ∃ s, l ∈ net.series s := by
    intro l hl
    rcases List.mem_append.1 hl with hl | hl
    · exact ⟨.line, hl⟩
    · exact ⟨.trafo, hl⟩
  have hedge : ∀ l ∈ net.series .line ++ net.series .trafo, ∃ e, lineEdge l = .ok e ∧ l.busPos = [e.1, e.2] := by
    intro l hl
    obtain ⟨s, hs⟩ := hall l hl
    obtain ⟨x, y, _, _, _, _, _, hp, _⟩ := h.ends s l hs
    refine ⟨(x, y), ?_, hp⟩
    unfold lineEdge
    rw [hp]
    rfl
  obtain ⟨es, hes, hF⟩ : ∃ es, (net.series .line ++ net.series .trafo).mapM lineEdge = .ok es ∧
      List.Forall₂ (fun (l : TpLine) (e : Nat × Nat) => l.busPos = [e.1, e.2]) (net.series .line ++ net.series .trafo) es := by
    generalize net.series .line ++ net.series .trafo = L at hedge
    clear hall
    induction L with
    | nil => exact ⟨[], rfl, List.Forall₂.nil⟩
    | cons l L ih =>
      obtain ⟨es, e1, e2⟩ := ih (fun l' h' => hedge l' (List.mem_cons_of_mem _ h'))
      obtain ⟨e, e3, e4⟩ := hedge l List.mem_cons_self
      refine ⟨e :: es, ?_, List.Forall₂.cons e4 e2⟩
      rw [List.mapM_cons, e3, e1]
      rfl
  have hto : ∀ l ∈ net.series .line ++ net.series .trafo, ∃ e ∈ es, l.busPos = [e.1, e.2] := by
    intro l hl
    obtain ⟨i, hi, rfl⟩ := List.mem_iff_getElem.1 hl
    have hi2 : i < es.length := by rw [← hF.length_eq]; exact hi
    exact ⟨es[i], List.getElem_mem hi2, (List.forall₂_iff_get.1 hF).2 i hi hi2⟩
  have hfrom : ∀ e ∈ es, ∃ l ∈ net.series .line ++ net.series .trafo, l.busPos = [e.1, e.2] := by
    intro e he
    obtain ⟨i, hi, rfl⟩ := List.mem_iff_getElem.1 he
    have hi2 : i < (net.series .line ++ net.series .trafo).length := by rw [hF.length_eq]; exact hi
    exact ⟨_, List.getElem_mem hi2, (List.forall₂_iff_get.1 hF).2 i hi2 hi⟩
  have hin : ∀ s, ∀ l ∈ net.series s, l ∈ net.series .line ++ net.series .trafo := by
    intro s l hl
    cases s with
    | line => exact List.mem_append_left _ hl
    | trafo => exact List.mem_append_right _ hl
  refine ⟨es, ?_, ?_, fun s l hl => hto l (hin s l hl), ?_⟩
  · unfold netEdges
    rw [if_neg (by tauto), hes]
  · intro x b hb
    constructor
    · rintro ⟨e, he, hx⟩
      obtain ⟨l, hl, hp⟩ := hfrom e he
      obtain ⟨s, hs⟩ := hall l hl
      refine ⟨s, l, hs, (ends_mem h.numbers (h.ends s l hs) hb).2 ?_⟩
      rw [hp]
      rcases hx with rfl | rfl <;> simp
    · rintro ⟨s, l, hl, hm⟩
      obtain ⟨e, he, hp⟩ := hto l (hin s l hl)
      have := (ends_mem h.numbers (h.ends s l hl) hb).1 hm
      rw [hp] at this
      simp only [List.mem_cons, List.not_mem_nil, or_false] at this
      exact ⟨e, he, by tauto⟩
  · intro e he
    obtain ⟨l, hl, hp⟩ := hfrom e he
    obtain ⟨s, hs⟩ := hall l hl
    exact ⟨s, l, hs, hp⟩

/-! ## isolated buses -/

theorem getObjects_ok {α : Type} (l : List α) (pos : List Nat) (h : ∀ i ∈ pos, i < l.length) : getObjects l pos = .ok (pos.filterMap (fun i => l[i]?)) := by
  unfold getObjects
  induction pos with
  | nil => rfl
  | cons i pos ih =>
    have hi := h i List.mem_cons_self
    rw [List.mapM_cons, pyGet_nat' l i l[i] (List.getElem?_eq_getElem hi), ih (fun j hj => h j (List.mem_cons_of_mem _ hj)), List.filterMap_cons, List.getElem?_eq_getElem hi]
    rfl

theorem range_filterMap {α : Type} (l : List α) : (List.range l.length).filterMap (fun i => l[i]?) = l := by
  have h : (List.range l.length).filterMap (fun i => l[i]?) = (List.range l.length).filterMap (fun i => (some (l[i]?)).join) := rfl
  have h2 : l.zipIdx.map (·.2) = List.range l.length := by rw [List.zipIdx_map_snd, List.range_eq_range']
  rw [← h2, List.filterMap_map]
  have h3 : l.zipIdx.filterMap ((fun i => l[i]?) ∘ fun x => x.2) = l.zipIdx.filterMap (fun p => some p.1) := by
    apply List.filterMap_congr
    intro p hp
    rw [List.mem_zipIdx_iff_getElem?] at hp
    exact hp
  rw [h3, List.filterMap_eq_map']
  exact List.zipIdx_map_fst 0 l

theorem deleteAt_filterMap {α : Type} (l : List α) (pos : List Nat) : deleteAt l pos = ((List.range l.length).filter (fun i => decide (i ∉ pos))).filterMap (fun i => l[i]?) := by
  unfold deleteAt
  have h2 : l.zipIdx.map (·.2) = List.range l.length := by rw [List.zipIdx_map_snd, List.range_eq_range']
  rw [← h2, List.filter_map, List.filterMap_map]
  have h3 : (l.zipIdx.filter ((fun i => decide (i ∉ pos)) ∘ fun x => x.2)).filterMap ((fun i => l[i]?) ∘ fun x => x.2) =
      (l.zipIdx.filter ((fun i => decide (i ∉ pos)) ∘ fun x => x.2)).filterMap (fun p => some p.1) := by
    apply List.filterMap_congr
    intro p hp
    have := (List.mem_filter.1 hp).1
    rw [List.mem_zipIdx_iff_getElem?] at this
    exact this
  rw [h3, List.filterMap_eq_map']
  rfl

/-- deleting buses without elements keeps a network consistent -/
theorem deleteBuses_ok {net : TpNet} (h : TpOk net) (pos : List Nat)
    (hiso : ∀ x ∈ pos, ∀ b, net.buses[x]? = some b → ∀ s, ∀ l ∈ net.series s, b.number ∉ l.buses) :
    TpOk (deleteBuses net pos) ∧ (deleteBuses net pos).buses = deleteAt net.buses pos ∧
    ∃ w : TpLine → List Nat, ∀ s, (deleteBuses net pos).series s = (net.series s).map (fun l => { l with busPos := w l }) := by
  obtain ⟨w, hw⟩ : ∃ w : TpLine → List Nat, w = fun l => if deleteAt net.buses pos = [] then [] else relPos ((deleteAt net.buses pos).map (·.number)) 0 l.buses := ⟨_, rfl⟩
  have hser : ∀ s, (deleteBuses net pos).series s = (net.series s).map (fun l => { l with busPos := w l }) := by
    intro s
    rw [hw]
    rfl
  have hb : (deleteBuses net pos).buses = deleteAt net.buses pos := rfl
  have hsub : ∀ b ∈ deleteAt net.buses pos, b ∈ net.buses := by
    intro b hb
    obtain ⟨i, hi, _⟩ := mem_deleteAt.1 hb
    exact List.mem_of_getElem? hi
  have hnd : ((deleteAt net.buses pos).map (·.number)).Nodup := deleteAt_nodup h.numbers
  have hmem : ∀ s, ∀ l' ∈ (deleteBuses net pos).series s, ∃ l ∈ net.series s, l' = { l with busPos := w l } := by
    intro s l' hl'
    rw [hser] at hl'
    obtain ⟨l, hl, rfl⟩ := List.mem_map.1 hl'
    exact ⟨l, hl, rfl⟩
  have hends : ∀ s, ∀ l ∈ net.series s, ∀ n ∈ l.buses, n ∈ (deleteAt net.buses pos).map (·.number) := by
    intro s l hl n hn
    obtain ⟨x, y, bx, by', _, hx, hy, _, hbn⟩ := h.ends s l hl
    have : n = bx.number ∨ n = by'.number := by
      rcases hbn with e | e <;> rw [e] at hn <;> simp at hn <;> tauto
    rcases this with rfl | rfl
    · apply List.mem_map_of_mem
      rw [mem_deleteAt]
      exact ⟨x, hx, fun hm => hiso x hm bx hx s l hl hn⟩
    · apply List.mem_map_of_mem
      rw [mem_deleteAt]
      exact ⟨y, hy, fun hm => hiso y hm by' hy s l hl hn⟩
  refine ⟨⟨by rw [hb]; exact hnd, ?_, ?_, ?_, ?_, ?_, ?_⟩, hb, w, hser⟩
  · intro s
    rw [hser, List.map_map]
    exact h.serNumbers s
  · intro s l' hl'
    obtain ⟨l, hl, rfl⟩ := hmem s l' hl'
    obtain ⟨x, y, bx, by', hxy, hx, hy, _, hbn⟩ := h.ends s l hl
    have hne : bx.number ≠ by'.number := fun he => hxy (number_inj h.numbers hx hy he)
    obtain ⟨a, b, hab, hl2, ha, hbm⟩ : ∃ a b, a ≠ b ∧ l.buses = [a, b] ∧ a ∈ (deleteAt net.buses pos).map (·.number) ∧ b ∈ (deleteAt net.buses pos).map (·.number) := by
      rcases hbn with e | e
      · exact ⟨_, _, hne, e, hends s l hl _ (by rw [e]; simp), hends s l hl _ (by rw [e]; simp)⟩
      · exact ⟨_, _, hne.symm, e, hends s l hl _ (by rw [e]; simp), hends s l hl _ (by rw [e]; simp)⟩
    obtain ⟨i, j, hij, hp, hk⟩ := relPos_two _ a b hnd hab ha hbm
    have get : ∀ (i : Nat) (n : Int), ((deleteAt net.buses pos).map (·.number))[i]? = some n → ∃ b, (deleteAt net.buses pos)[i]? = some b ∧ b.number = n := by
      intro i n h
      rw [List.getElem?_map] at h
      cases hb : (deleteAt net.buses pos)[i]? with
      | none => rw [hb] at h; cases h
      | some b =>
        rw [hb] at h
        exact ⟨b, rfl, by simpa using h⟩
    have hwl : w l = [i, j] := by
      rw [hw]
      simp only
      rw [if_neg (by intro h0; rw [h0] at ha; simp at ha), hl2, hp]
    simp only
    rw [hwl, hb, hl2]
    rcases hk with ⟨k1, k2⟩ | ⟨k1, k2⟩
    · obtain ⟨b1, g1, rfl⟩ := get i a k1
      obtain ⟨b2, g2, rfl⟩ := get j b k2
      exact ⟨i, j, b1, b2, by omega, g1, g2, rfl, Or.inl rfl⟩
    · obtain ⟨b1, g1, rfl⟩ := get i b k1
      obtain ⟨b2, g2, rfl⟩ := get j a k2
      exact ⟨i, j, b1, b2, by omega, g1, g2, rfl, Or.inr rfl⟩
  · intro s b hb'
    exact h.serNo s b (hsub b hb')
  · intro s l' hl' b hb'
    obtain ⟨l, hl, rfl⟩ := hmem s l' hl'
    exact h.listedNo s l hl b (hsub b hb')
  · intro s e l' hl' b hb'
    rw [hser, List.getElem?_map] at hl'
    cases hg : (net.series s)[e]? with
    | none => rw [hg] at hl'; cases hl'
    | some l =>
      rw [hg] at hl'
      simp only [Option.map_some, Option.some.injEq] at hl'
      subst hl'
      exact h.listed s e l hg b (hsub b hb')
  · intro s b hb' e he
    rw [hser, List.length_map]
    exact h.range s b (hsub b hb') e he

/-- every generator is listed by exactly one bus -/
def GenListed (net : TpNet) : Prop := ∀ g, (net.buses.flatMap (fun b => b.genPos g)).Perm (List.range (net.gens g).length)

/-- what `find_isolates` returns -/
theorem findIsolates_spec {net : TpNet} (h : TpOk net) (hg : GenListed net) (hne : net.series .line ≠ [] ∨ net.series .trafo ≠ []) :
    ∃ iso, findIsolates net = .ok iso ∧ TpOk iso.net ∧ (iso.nodes ++ iso.net.buses).Perm net.buses ∧
      (∀ b ∈ iso.nodes, ∀ s, ∀ l ∈ net.series s, b.number ∉ l.buses) ∧ (∀ b ∈ iso.net.buses, ∃ s, ∃ l ∈ net.series s, b.number ∈ l.buses) ∧
      (∃ w : TpLine → List Nat, ∀ s, iso.net.series s = (net.series s).map (fun l => { l with busPos := w l })) ∧
      (∀ g, (iso.net.gens g).map (fun x => (x.bus, x.cap)) = (net.gens g).map (fun x => (x.bus, x.cap))) ∧
      (∀ g, (match g with
        | .conv => iso.conv
        | .res => iso.res
        | .hydro => iso.hydro) = (iso.nodes.flatMap (fun b => b.genPos g)).filterMap (fun i => (net.gens g)[i]?)) := by
  obtain ⟨es, hes, hedge, _, hfrom⟩ := netEdges_spec h hne
  have hbne : net.buses ≠ [] := by
    intro h0
    have : ∃ s l, l ∈ net.series s := by
      rcases hne with hn | hn
      · obtain ⟨l, ls, hl⟩ := List.exists_cons_of_ne_nil hn
        exact ⟨.line, l, by rw [hl]; simp⟩
      · obtain ⟨l, ls, hl⟩ := List.exists_cons_of_ne_nil hn
        exact ⟨.trafo, l, by rw [hl]; simp⟩
    obtain ⟨s, l, hl⟩ := this
    obtain ⟨x, y, bx, _, _, hx, _⟩ := h.ends s l hl
    rw [h0] at hx
    simp at hx
  obtain ⟨iso, hiso⟩ : ∃ iso, iso = isolatedNodes net.buses.length es := ⟨_, rfl⟩
  have hlt : ∀ x ∈ iso, x < net.buses.length := by
    intro x hx
    rw [hiso] at hx
    exact List.mem_range.1 (List.mem_filter.1 hx).1
  obtain ⟨bs, hbs⟩ : ∃ bs, bs = iso.filterMap (fun i => net.buses[i]?) := ⟨_, rfl⟩
  have hget := getObjects_ok net.buses iso hlt
  have hmemiso : ∀ (x : Nat) (b : TpBus), net.buses[x]? = some b → (x ∈ iso ↔ ∀ s, ∀ l ∈ net.series s, b.number ∉ l.buses) := by
    intro x b hb
    have := hedge x b hb
    rw [hiso]
    unfold isolatedNodes
    rw [List.mem_filter, decide_eq_true_eq]
    constructor
    · rintro ⟨_, h2⟩ s l hl hm
      obtain ⟨e, he, hx⟩ := this.2 ⟨s, l, hl, hm⟩
      have := h2 e he
      tauto
    · intro h2
      refine ⟨List.mem_range.2 (List.getElem?_eq_some_iff.1 hb).1, ?_⟩
      intro e he
      constructor
      · intro hx
        obtain ⟨s, l, hl, hm⟩ := this.1 ⟨e, he, Or.inl hx⟩
        exact h2 s l hl hm
      · intro hx
        obtain ⟨s, l, hl, hm⟩ := this.1 ⟨e, he, Or.inr hx⟩
        exact h2 s l hl hm
  have hisoAll : ∀ x ∈ iso, ∀ b, net.buses[x]? = some b → ∀ s, ∀ l ∈ net.series s, b.number ∉ l.buses := fun x hx b hb => (hmemiso x b hb).1 hx
  -- the generators
  have hperm : (iso ++ (List.range net.buses.length).filter (fun i => decide (i ∉ iso))).Perm (List.range net.buses.length) := by
    have h1 : iso = (List.range net.buses.length).filter (fun i => decide (i ∈ iso)) := by
      conv_lhs => rw [hiso]
      unfold isolatedNodes
      apply List.filter_congr
      intro x hx
      rw [decide_eq_decide, hiso]
      unfold isolatedNodes
      rw [List.mem_filter, decide_eq_true_eq]
      exact ⟨fun h => ⟨hx, h⟩, fun h => h.2⟩
    conv_lhs => enter [1]; rw [h1]
    have := List.filter_append_perm (fun i => decide (i ∈ iso)) (List.range net.buses.length)
    simp only [decide_not] at this ⊢
    exact this
  have hpermB : (bs ++ deleteAt net.buses iso).Perm net.buses := by
    rw [hbs, deleteAt_filterMap, ← List.filterMap_append]
    have := hperm.filterMap (fun i => net.buses[i]?)
    rw [range_filterMap] at this
    exact this
  have hbsmem : ∀ b ∈ bs, b ∈ net.buses := fun b hb => hpermB.subset (List.mem_append_left _ hb)
  have hgr : ∀ g, ∀ i ∈ bs.flatMap (fun b => b.genPos g), i < (net.gens g).length := by
    intro g i hi
    obtain ⟨b, hb, hib⟩ := List.mem_flatMap.1 hi
    have : i ∈ net.buses.flatMap (fun b => b.genPos g) := List.mem_flatMap.2 ⟨b, hbsmem b hb, hib⟩
    exact List.mem_range.1 ((hg g).subset this)
  have hgens : ∀ g, isolatedGens net g bs = .ok ((bs.flatMap (fun b => b.genPos g)).filterMap (fun i => (net.gens g)[i]?)) := by
    intro g
    exact getObjects_ok _ _ (hgr g)
  have hnet : ∃ N, N = (if iso = [] then net else deleteBuses net iso) ∧ TpOk N ∧ N.buses = deleteAt net.buses iso ∧
      (∃ w : TpLine → List Nat, ∀ s, N.series s = (net.series s).map (fun l => { l with busPos := w l })) ∧
      (∀ g, (N.gens g).map (fun x => (x.bus, x.cap)) = (net.gens g).map (fun x => (x.bus, x.cap))) := by
    refine ⟨_, rfl, ?_⟩
    split
    · rename_i h0
      refine ⟨h, ?_, ⟨fun l => l.busPos, fun s => by simp⟩, fun _ => rfl⟩
      rw [h0]
      unfold deleteAt
      simp
    · obtain ⟨a1, a2, a3⟩ := deleteBuses_ok h iso hisoAll
      refine ⟨a1, a2, a3, ?_⟩
      intro g
      have : (deleteBuses net iso).gens g = (net.gens g).map (fun x => ⟨x.bus, (if deleteAt net.buses iso = [] then x.busPos else relOne ((deleteAt net.buses iso).map (·.number)) x.bus x.busPos), x.cap⟩) := rfl
      rw [this, List.map_map]
      rfl
  obtain ⟨N, hN, n1, n2, n3, n4⟩ := hnet
  refine ⟨⟨bs, (bs.flatMap (fun b => b.genPos .conv)).filterMap (fun i => (net.gens .conv)[i]?), (bs.flatMap (fun b => b.genPos .res)).filterMap (fun i => (net.gens .res)[i]?),
    (bs.flatMap (fun b => b.genPos .hydro)).filterMap (fun i => (net.gens .hydro)[i]?), N⟩, ?_, n1, ?_, ?_, ?_, n3, n4, ?_⟩
  · unfold findIsolates
    rw [if_neg hbne, hes]
    simp only [bind, Except.bind]
    rw [← hiso, hget, ← hbs]
    simp only
    rw [hgens .conv, hgens .res, hgens .hydro]
    simp only [← hN]
  · rw [n2]
    exact hpermB
  · intro b hb
    rw [hbs] at hb
    obtain ⟨x, hx, hxb⟩ := List.mem_filterMap.1 hb
    exact hisoAll x hx b hxb
  · intro b hb
    simp only [n2] at hb
    obtain ⟨x, hx, hxn⟩ := mem_deleteAt.1 hb
    by_contra hcon
    apply hxn
    rw [hmemiso x b hx]
    intro s l hl hm
    exact hcon ⟨s, l, hl, hm⟩
  · intro g
    cases g <;> rfl


/-! ## islands -/

/-- what a user sees of a bus: number, voltage, demand, losses, bus numbers of its generators -/
def busData (b : TpBus) : Int × Rat × Rat × Rat × Rat × (GenT → List Int) := (b.number, b.volt, b.pd, b.qd, b.loss, b.genNo)

/-- what a user sees of a series element: number, numbers of its buses, status, electrical data -/
def lineData (l : TpLine) : Int × List Int × Int × LinePar := (l.number, l.buses, l.status, l.par)

/-- what a user sees of a generator: number of its bus, capacity -/
def genData (x : TpGen) : Int × Rat := (x.bus, x.cap)

/-- the loop that looks for wanted numbers finds each as often as it is wanted -/
theorem relPos_count (keys : List Int) : ∀ (i : Nat) (rem : List Int) (e : Nat), e ∈ relPos keys i rem ↔
    ∃ (j : Nat) (k : Int), e = i + j ∧ keys[j]? = some k ∧ (keys.take j).count k < rem.count k := by
  induction keys with
  | nil => intro i rem e; simp [relPos]
  | cons a ks ih =>
    intro i rem e
    unfold relPos
    have hsplit : (∃ (j : Nat) (k : Int), e = i + j ∧ (a :: ks)[j]? = some k ∧ ((a :: ks).take j).count k < rem.count k) ↔
        (e = i ∧ a ∈ rem) ∨ ∃ (j : Nat) (k : Int), e = i + 1 + j ∧ ks[j]? = some k ∧ (a :: ks.take j).count k < rem.count k := by
      constructor
      · rintro ⟨j, k, h1, h2, h3⟩
        cases j with
        | zero =>
          simp only [List.getElem?_cons_zero, Option.some.injEq] at h2
          subst h2
          simp only [List.take_zero, List.count_nil] at h3
          exact Or.inl ⟨by omega, List.count_pos_iff.1 h3⟩
        | succ j => exact Or.inr ⟨j, k, by omega, by simpa using h2, by simpa using h3⟩
      · rintro (⟨h1, h2⟩ | ⟨j, k, h1, h2, h3⟩)
        · exact ⟨0, a, by omega, rfl, by simpa using List.count_pos_iff.2 h2⟩
        · exact ⟨j + 1, k, by omega, by simpa using h2, by simpa using h3⟩
    rw [hsplit]
    by_cases ha : a ∈ rem
    · rw [if_pos ha, List.mem_cons, ih]
      have hpos := List.count_pos_iff.2 ha
      have hone : ∀ (j : Nat) (k : Int), ((ks.take j).count k < (rem.erase a).count k ↔ (a :: ks.take j).count k < rem.count k) := by
        intro j k
        rw [List.count_erase, List.count_cons]
        by_cases hk : a = k
        · subst hk; simp only [beq_self_eq_true, if_true]; omega
        · simp only [beq_iff_eq, hk, if_false]; simp
      constructor
      · rintro (h | ⟨j, k, h1, h2, h3⟩)
        · exact Or.inl ⟨h, ha⟩
        · exact Or.inr ⟨j, k, h1, h2, (hone j k).1 h3⟩
      · rintro (⟨h, _⟩ | ⟨j, k, h1, h2, h3⟩)
        · exact Or.inl h
        · exact Or.inr ⟨j, k, h1, h2, (hone j k).2 h3⟩
    · rw [if_neg ha, ih]
      have h0 := List.count_eq_zero.2 ha
      constructor
      · rintro ⟨j, k, h1, h2, h3⟩
        refine Or.inr ⟨j, k, h1, h2, ?_⟩
        rw [List.count_cons]
        by_cases hk : a = k
        · subst hk; omega
        · simp only [beq_iff_eq, hk, if_false]; simpa using h3
      · rintro (⟨_, h⟩ | ⟨j, k, h1, h2, h3⟩)
        · exact absurd h ha
        · refine ⟨j, k, h1, h2, ?_⟩
          rw [List.count_cons] at h3
          omega

/-- the generator tables of a network fit: a bus that lists its number once for each generator of the type at it (and nothing else) lists the positions of exactly these generators;
the position of the bus kept by a generator is the position of its bus -/
def GensFit (net : TpNet) : Prop :=
  (∀ g, ∀ b ∈ net.buses, b.genNo g = List.replicate ((net.gens g).countP (fun x => decide (x.bus = b.number))) b.number →
    ∀ e, e ∈ b.genPos g ↔ ∃ x, (net.gens g)[e]? = some x ∧ x.bus = b.number) ∧
  ∀ g, ∀ x ∈ net.gens g, x.bus ∈ net.buses.map (·.number) → ∃ b, net.buses[x.busPos]? = some b ∧ b.number = x.bus

theorem updateAll_gens (net : TpNet) : GensFit (updateAll net) := by
  have hg : ∀ g, (updateAll net).gens g = (net.gens g).map (fun x => ⟨x.bus, (if net.buses = [] then x.busPos else relOne (net.buses.map (·.number)) x.bus x.busPos), x.cap⟩) := fun g => rfl
  have hb : ∀ b ∈ (updateAll net).buses, ∀ g, b.genPos g = if net.gens g = [] then [] else relPos ((net.gens g).map (·.bus)) 0 (b.genNo g) := by
    intro b hb g
    simp only [updateAll, updGenPos, updSerPos, updBusPos, List.map_map] at hb
    obtain ⟨b0, hb0, rfl⟩ := List.mem_map.1 hb
    cases g <;> simp [Function.comp_def]
  refine ⟨?_, ?_⟩
  · intro g b hbm hrep e
    rw [hb b hbm g]
    have hcnt : ((updateAll net).gens g).countP (fun x => decide (x.bus = b.number)) = ((net.gens g).map (·.bus)).count b.number := by
      rw [hg, List.countP_map, List.count_eq_countP, List.countP_map]
      apply List.countP_congr
      intro x _
      simp
    have hget : (∃ x, ((updateAll net).gens g)[e]? = some x ∧ x.bus = b.number) ↔ ((net.gens g).map (·.bus))[e]? = some b.number := by
      rw [hg, List.getElem?_map, List.getElem?_map]
      cases (net.gens g)[e]? with
      | none => simp
      | some y => simp
    rw [hget]
    split
    · rename_i h0
      simp [h0]
    · rw [relPos_count, hrep, hcnt]
      constructor
      · rintro ⟨j, k, h1, h2, h3⟩
        have : k = b.number := by
          have : k ∈ List.replicate (((net.gens g).map (·.bus)).count b.number) b.number := List.count_pos_iff.1 (by omega)
          exact (List.mem_replicate.1 this).2
        rw [show e = j from by omega, h2, this]
      · intro h
        refine ⟨e, b.number, by omega, h, ?_⟩
        rw [List.count_replicate_self]
        have hsplit := List.take_append_drop e ((net.gens g).map (·.bus))
        obtain ⟨hlt, hv⟩ := List.getElem?_eq_some_iff.1 h
        have hmem : b.number ∈ ((net.gens g).map (·.bus)).drop e := by
          rw [List.drop_eq_getElem_cons hlt, hv]
          simp
        have h1 := List.count_pos_iff.2 hmem
        have h2 := congrArg (List.count b.number) hsplit
        rw [List.count_append] at h2
        omega
  · intro g x hx hin
    have hnum : (updateAll net).buses.map (·.number) = net.buses.map (·.number) := updateAll_map net (·.number) (fun _ _ _ => rfl)
    rw [hnum] at hin
    rw [hg] at hx
    obtain ⟨y, hy, rfl⟩ := List.mem_map.1 hx
    simp only at hin ⊢
    rw [if_neg (by intro h; rw [h] at hin; simp at hin)]
    unfold relOne
    cases hf : (net.buses.map (·.number)).findIdx? (· = y.bus) with
    | none =>
      rw [List.findIdx?_eq_none_iff] at hf
      have := hf _ hin
      simp at this
    | some i =>
      rw [List.findIdx?_eq_some_iff_getElem] at hf
      obtain ⟨hlt, hv, _⟩ := hf
      simp only [decide_eq_true_eq] at hv
      have h2 : ((updateAll net).buses.map (·.number))[i]? = some y.bus := by
        rw [hnum, List.getElem?_eq_getElem hlt, hv]
      rw [List.getElem?_map] at h2
      simp only [Option.map_eq_some_iff] at h2
      simpa using h2

/-- new positions make a network consistent -/
theorem updateAll_ok {net : TpNet} (hn : (net.buses.map (·.number)).Nodup) (hs : ∀ s, ((net.series s).map (·.number)).Nodup)
    (he : ∀ s, ∀ l ∈ net.series s, ∃ a b, a ≠ b ∧ l.buses = [a, b] ∧ a ∈ net.buses.map (·.number) ∧ b ∈ net.buses.map (·.number))
    (hsn : ∀ s, ∀ b ∈ net.buses, (b.serNo s).Nodup) (hl' : ∀ s, ∀ l ∈ net.series s, ∀ b ∈ net.buses, l.number ∈ b.serNo s ↔ b.number ∈ l.buses) :
    TpOk (updateAll net) := by
  have e1 : ∀ s, (updateAll net).series s = (net.series s).map (fun l => { l with busPos := if net.buses = [] then [] else relPos (net.buses.map (·.number)) 0 l.buses }) := fun s => rfl
  have hmem : ∀ s, ∀ l ∈ (updateAll net).series s, ∃ l0 ∈ net.series s, l.number = l0.number ∧ l.buses = l0.buses := by
    intro s l hl
    rw [e1] at hl
    obtain ⟨l0, h0, rfl⟩ := List.mem_map.1 hl
    exact ⟨l0, h0, rfl, rfl⟩
  have hnum : (updateAll net).buses.map (·.number) = net.buses.map (·.number) := updateAll_map net (·.number) (fun _ _ _ => rfl)
  have hser : ∀ s, ((updateAll net).series s).map (·.number) = (net.series s).map (·.number) := fun s => updateAll_series net s (·.number) (fun _ _ => rfl)
  have hbus : ∀ b ∈ (updateAll net).buses, ∃ b0 ∈ net.buses, b.number = b0.number ∧ b.serNo = b0.serNo ∧
      ∀ s, b.serPos s = if net.series s = [] then [] else relPos ((net.series s).map (·.number)) 0 (b0.serNo s) := by
    intro b hb
    simp only [updateAll, updGenPos, updSerPos, updBusPos, List.map_map] at hb
    obtain ⟨b0, hb0, rfl⟩ := List.mem_map.1 hb
    refine ⟨b0, hb0, rfl, rfl, ?_⟩
    intro s
    cases s <;> simp [Function.comp_def]
  refine ⟨by rw [hnum]; exact hn, fun s => by rw [hser]; exact hs s, ?_, ?_, ?_, ?_, ?_⟩
  · intro s l hl
    obtain ⟨l0, h0, _, hb⟩ := hmem s l hl
    obtain ⟨a, b, hab, hb2, ha, hb3⟩ := he s l0 h0
    exact updateAll_ends net hn s l hl a b (hb.trans hb2) hab ha hb3
  · intro s b hb
    obtain ⟨b0, hb0, _, h2, _⟩ := hbus b hb
    rw [h2]
    exact hsn s b0 hb0
  · intro s l hl b hb
    obtain ⟨l0, h0, hn', hb'⟩ := hmem s l hl
    obtain ⟨b0, hb0, h1, h2, _⟩ := hbus b hb
    rw [h1, h2, hn', hb']
    exact hl' s l0 h0 b0 hb0
  · intro s e l hl b hb
    have hlm := List.mem_of_getElem? hl
    obtain ⟨l0, h0, hn', hb'⟩ := hmem s l hlm
    obtain ⟨b0, hb0, h1, _, h3⟩ := hbus b hb
    rw [h3, if_neg (by intro h; rw [h] at h0; simp at h0), relPos_mem (hs s) (hsn s b0 hb0), ← hser, List.getElem?_map, hl, h1, hb', ← hl' s l0 h0 b0 hb0, ← hn']
    simp
  · intro s b hb e he'
    obtain ⟨b0, hb0, _, _, h3⟩ := hbus b hb
    rw [h3] at he'
    split at he'
    · simp at he'
    · rw [relPos_mem (hs s) (hsn s b0 hb0)] at he'
      obtain ⟨k, hk, _⟩ := he'
      have := (List.getElem?_eq_some_iff.1 hk).1
      rw [e1, List.length_map]
      simpa using this


theorem pick_nodup {α β : Type} {l : List α} {f : α → β} {pos : List Nat} (hp : pos.Nodup) (h : (l.map f).Nodup) : ((pos.filterMap (fun i => l[i]?)).map f).Nodup := by
  rw [List.map_filterMap]
  apply List.Nodup.filterMap _ hp
  intro a a' b ha ha'
  simp only [Option.mem_def, Option.map_eq_some_iff] at ha ha'
  obtain ⟨x, hx, rfl⟩ := ha
  obtain ⟨y, hy, hxy⟩ := ha'
  have l1 := (List.getElem?_eq_some_iff.1 hx).1
  have l2 := (List.getElem?_eq_some_iff.1 hy).1
  apply (List.Nodup.getElem_inj_iff h (i := a) (j := a') (hi := by simpa using l1) (hj := by simpa using l2)).1
  rw [List.getElem_map, List.getElem_map, (List.getElem?_eq_some_iff.1 hx).2, (List.getElem?_eq_some_iff.1 hy).2, hxy]

/-- the positions of the elements of an island -/
def islandSer (net : TpNet) (C : List Nat) (s : Series) : List Nat := ((C.filterMap (fun i => net.buses[i]?)).flatMap (fun b => b.serPos s)).eraseDups

/-- the positions of the generators of an island -/
def islandGen (net : TpNet) (C : List Nat) (g : GenT) : List Nat := ((C.filterMap (fun i => net.buses[i]?)).flatMap (fun b => b.genPos g)).eraseDups

theorem mem_islandSer {net : TpNet} (h : TpOk net) {C : List Nat} {s : Series} {e : Nat} {l : TpLine} (he : (net.series s)[e]? = some l) :
    e ∈ islandSer net C s ↔ ∃ x ∈ C, x ∈ l.busPos := by
  have hlm := List.mem_of_getElem? he
  unfold islandSer
  rw [List.mem_eraseDups, List.mem_flatMap]
  constructor
  · rintro ⟨b, hb, hm⟩
    obtain ⟨x, hx, hxb⟩ := List.mem_filterMap.1 hb
    exact ⟨x, hx, (ends_mem h.numbers (h.ends s l hlm) hxb).1 ((h.listed s e l he b (List.mem_of_getElem? hxb)).1 hm)⟩
  · rintro ⟨x, hx, hxl⟩
    obtain ⟨b, hb⟩ : ∃ b, net.buses[x]? = some b := by
      obtain ⟨a, b, ba, bb, _, ha, hb, hp, _⟩ := h.ends s l hlm
      rw [hp] at hxl
      simp only [List.mem_cons, List.not_mem_nil, or_false] at hxl
      rcases hxl with rfl | rfl
      · exact ⟨_, ha⟩
      · exact ⟨_, hb⟩
    exact ⟨b, List.mem_filterMap.2 ⟨x, hx, hb⟩, (h.listed s e l he b (List.mem_of_getElem? hb)).2 ((ends_mem h.numbers (h.ends s l hlm) hb).2 hxl)⟩

theorem islandSer_lt {net : TpNet} (h : TpOk net) {C : List Nat} {s : Series} : ∀ e ∈ islandSer net C s, e < (net.series s).length := by
  intro e he
  unfold islandSer at he
  rw [List.mem_eraseDups, List.mem_flatMap] at he
  obtain ⟨b, hb, hm⟩ := he
  obtain ⟨x, _, hxb⟩ := List.mem_filterMap.1 hb
  exact h.range s b (List.mem_of_getElem? hxb) e hm

/-- one island -/
theorem islandOf_spec {net : TpNet} (h : TpOk net) (hg : ∀ g, ∀ b ∈ net.buses, ∀ i ∈ b.genPos g, i < (net.gens g).length) {C : List Nat} (hC : ∀ x ∈ C, x < net.buses.length)
    (hnd : C.Nodup) (hclosed : ∀ s, ∀ l ∈ net.series s, ∀ x y, l.busPos = [x, y] → (x ∈ C ↔ y ∈ C)) :
    ∃ I, islandOf net C = .ok I ∧ (TpOk I ∧ GensFit I) ∧ I.buses.map busData = (C.filterMap (fun i => net.buses[i]?)).map busData ∧
      (∀ s, (I.series s).map lineData = ((islandSer net C s).filterMap (fun i => (net.series s)[i]?)).map lineData) ∧
      (∀ g, (I.gens g).map genData = ((islandGen net C g).filterMap (fun i => (net.gens g)[i]?)).map genData) := by
  have hgl : ∀ g, ∀ i ∈ islandGen net C g, i < (net.gens g).length := by
    intro g i hi
    unfold islandGen at hi
    rw [List.mem_eraseDups, List.mem_flatMap] at hi
    obtain ⟨b, hb, hm⟩ := hi
    obtain ⟨x, _, hxb⟩ := List.mem_filterMap.1 hb
    exact hg g b (List.mem_of_getElem? hxb) i hm
  obtain ⟨raw, hraw⟩ : ∃ raw : TpNet, raw = ⟨C.filterMap (fun i => net.buses[i]?), fun s => match s with
      | .line => (islandSer net C .line).filterMap (fun i => (net.series .line)[i]?)
      | .trafo => (islandSer net C .trafo).filterMap (fun i => (net.series .trafo)[i]?), fun g => match g with
      | .conv => (islandGen net C .conv).filterMap (fun i => (net.gens .conv)[i]?)
      | .res => (islandGen net C .res).filterMap (fun i => (net.gens .res)[i]?)
      | .hydro => (islandGen net C .hydro).filterMap (fun i => (net.gens .hydro)[i]?)⟩ := ⟨_, rfl⟩
  have r1 : raw.buses = C.filterMap (fun i => net.buses[i]?) := by rw [hraw]
  have r2 : ∀ s, raw.series s = (islandSer net C s).filterMap (fun i => (net.series s)[i]?) := by
    intro s
    rw [hraw]
    cases s <;> rfl
  have r3 : ∀ g, raw.gens g = (islandGen net C g).filterMap (fun i => (net.gens g)[i]?) := by
    intro g
    rw [hraw]
    cases g <;> rfl
  have hbmem : ∀ b ∈ raw.buses, ∃ x ∈ C, net.buses[x]? = some b := by
    intro b hb
    rw [r1] at hb
    obtain ⟨x, hx, hxb⟩ := List.mem_filterMap.1 hb
    exact ⟨x, hx, hxb⟩
  have hlmem : ∀ s, ∀ l ∈ raw.series s, ∃ e ∈ islandSer net C s, (net.series s)[e]? = some l := by
    intro s l hl
    rw [r2] at hl
    obtain ⟨x, hx, hxb⟩ := List.mem_filterMap.1 hl
    exact ⟨x, hx, hxb⟩
  refine ⟨updateAll raw, ?_, ?_, ?_, ?_, ?_⟩
  · unfold islandOf
    rw [getObjects_ok net.buses C hC]
    simp only [bind, Except.bind]
    unfold islandGens islandSeries
    have g1 := getObjects_ok (net.gens .conv) _ (hgl .conv)
    have g2 := getObjects_ok (net.gens .res) _ (hgl .res)
    have g3 := getObjects_ok (net.gens .hydro) _ (hgl .hydro)
    have s1 := getObjects_ok (net.series .line) _ (islandSer_lt h (C := C) (s := .line))
    have s2 := getObjects_ok (net.series .trafo) _ (islandSer_lt h (C := C) (s := .trafo))
    unfold islandGen at g1 g2 g3
    unfold islandSer at s1 s2
    rw [g1]
    simp only
    rw [g2]
    simp only
    rw [g3]
    simp only
    rw [s1]
    simp only
    rw [s2]
    simp only
    rw [hraw]
    rfl
  · refine ⟨?_, updateAll_gens raw⟩
    apply updateAll_ok
    · rw [r1]
      exact pick_nodup hnd h.numbers
    · intro s
      rw [r2]
      exact pick_nodup (nodup_eraseDups _ _ (Nat.le_refl _)) (h.serNumbers s)
    · intro s l hl
      obtain ⟨e, he, hel⟩ := hlmem s l hl
      have hlm := List.mem_of_getElem? hel
      obtain ⟨z, hz, hzl⟩ := (mem_islandSer h hel).1 he
      obtain ⟨x, y, bx, by', hxy, hx, hy, hp, hbn⟩ := h.ends s l hlm
      have hcl := hclosed s l hlm x y hp
      rw [hp] at hzl
      simp only [List.mem_cons, List.not_mem_nil, or_false] at hzl
      have hxC : x ∈ C := by
        rcases hzl with rfl | rfl
        · exact hz
        · exact hcl.2 hz
      have hyC := hcl.1 hxC
      have hne : bx.number ≠ by'.number := fun he => hxy (number_inj h.numbers hx hy he)
      have m1 : bx.number ∈ raw.buses.map (·.number) := by
        rw [r1]
        exact List.mem_map_of_mem (List.mem_filterMap.2 ⟨x, hxC, hx⟩)
      have m2 : by'.number ∈ raw.buses.map (·.number) := by
        rw [r1]
        exact List.mem_map_of_mem (List.mem_filterMap.2 ⟨y, hyC, hy⟩)
      rcases hbn with hbn | hbn
      · exact ⟨_, _, hne, hbn, m1, m2⟩
      · exact ⟨_, _, hne.symm, hbn, m2, m1⟩
    · intro s b hb
      obtain ⟨x, _, hx⟩ := hbmem b hb
      exact h.serNo s b (List.mem_of_getElem? hx)
    · intro s l hl b hb
      obtain ⟨x, _, hx⟩ := hbmem b hb
      obtain ⟨e, _, hel⟩ := hlmem s l hl
      exact h.listedNo s l (List.mem_of_getElem? hel) b (List.mem_of_getElem? hx)
  · rw [← r1]
    exact updateAll_map raw busData (fun _ _ _ => rfl)
  · intro s
    rw [← r2]
    exact updateAll_series raw s lineData (fun _ _ => rfl)
  · intro g
    rw [← r3]
    have : (updateAll raw).gens g = (raw.gens g).map (fun x => ⟨x.bus, (if raw.buses = [] then x.busPos else relOne (raw.buses.map (·.number)) x.bus x.busPos), x.cap⟩) := rfl
    rw [this, List.map_map]
    rfl

/-- components are disjoint -/
theorem flatten_disjoint {l : List (List Nat)} (h : l.flatten.Nodup) {i j : Nat} {a b : List Nat} (hi : l[i]? = some a) (hj : l[j]? = some b) (hij : i ≠ j) {x : Nat}
    (hx : x ∈ a) : x ∉ b := by
  intro hx2
  have hp := (List.nodup_flatten.1 h).2
  rw [List.pairwise_iff_getElem] at hp
  obtain ⟨hi1, rfl⟩ := List.getElem?_eq_some_iff.1 hi
  obtain ⟨hj1, rfl⟩ := List.getElem?_eq_some_iff.1 hj
  rcases Nat.lt_or_gt_of_ne hij with hlt | hlt
  · exact hp i j hi1 hj1 hlt hx hx2
  · exact hp j i hj1 hi1 hlt hx2 hx

/-- positions collected per component: nothing is lost or repeated -/
theorem flatMap_perm {comps : List (List Nat)} (P : List Nat → List Nat) (n : Nat) (hP : ∀ C ∈ comps, (P C).Nodup) (hlt : ∀ C ∈ comps, ∀ e ∈ P C, e < n)
    (hdisj : ∀ (i j : Nat) (C D : List Nat), comps[i]? = some C → comps[j]? = some D → i ≠ j → ∀ e ∈ P C, e ∉ P D)
    (hall : ∀ e, e < n → ∃ C ∈ comps, e ∈ P C) : (comps.flatMap P).Perm (List.range n) := by
  rw [List.perm_ext_iff_of_nodup _ List.nodup_range]
  · intro e
    rw [List.mem_flatMap, List.mem_range]
    constructor
    · rintro ⟨C, hC, he⟩
      exact hlt C hC e he
    · intro he
      obtain ⟨C, hC, h⟩ := hall e he
      exact ⟨C, hC, h⟩
  · rw [List.nodup_flatMap]
    refine ⟨hP, ?_⟩
    rw [List.pairwise_iff_getElem]
    intro i j hi hj hij e he he2
    exact hdisj i j _ _ (List.getElem?_eq_getElem hi) (List.getElem?_eq_getElem hj) (by omega) e he he2


/-- numbers of two buses joined by a chain of elements -/
def ChainOf (net : TpNet) : Int → Int → Prop := Relation.ReflTransGen (fun a b => ∃ s, ∃ l ∈ net.series s, a ∈ l.buses ∧ b ∈ l.buses)

theorem findIslands_spec {net : TpNet} (h : TpOk net) (hgn : ∀ g, (net.buses.flatMap (fun b => b.genPos g)).Nodup)
    (hg : ∀ g, ∀ b ∈ net.buses, ∀ i ∈ b.genPos g, i < (net.gens g).length) (hne : net.series .line ≠ [] ∨ net.series .trafo ≠ [])
    (components : Nat → List (Nat × Nat) → List (List Nat)) (hcomp : ∀ n es, (∀ e ∈ es, e.1 < n ∧ e.2 < n) → CompOk n es (components n es)) :
    ∃ isl, findIslands components net = .ok isl ∧ (∀ I ∈ isl, TpOk I ∧ GensFit I) ∧ (isl.flatMap (fun I => I.buses.map busData)).Perm (net.buses.map busData) ∧
      (∀ s, (isl.flatMap (fun I => (I.series s).map lineData)).Perm ((net.series s).map lineData)) ∧
      (∀ g, (isl.flatMap (fun I => (I.gens g).map genData)).Perm (((net.buses.flatMap (fun b => b.genPos g)).filterMap (fun i => (net.gens g)[i]?)).map genData)) ∧
      (∀ I ∈ isl, ∀ a ∈ I.buses, ∀ b ∈ I.buses, ChainOf net a.number b.number) ∧
      (∀ I ∈ isl, ∀ a ∈ I.buses, ∀ n, ChainOf net a.number n → n ∈ I.buses.map (·.number)) := by
  obtain ⟨es, hes, hedge, hto, hfrom⟩ := netEdges_spec h hne
  have hlt : ∀ e ∈ es, e.1 < net.buses.length ∧ e.2 < net.buses.length := by
    intro e he
    obtain ⟨s, l, hl, hp⟩ := hfrom e he
    obtain ⟨x, y, _, _, _, hx, hy, hp2, _⟩ := h.ends s l hl
    rw [hp] at hp2
    simp only [List.cons.injEq, and_true] at hp2
    rw [hp2.1, hp2.2]
    exact ⟨(List.getElem?_eq_some_iff.1 hx).1, (List.getElem?_eq_some_iff.1 hy).1⟩
  have hbne : net.buses ≠ [] := by
    intro h0
    have : ∃ s l, l ∈ net.series s := by
      rcases hne with hn | hn
      · obtain ⟨l, ls, hl⟩ := List.exists_cons_of_ne_nil hn
        exact ⟨.line, l, by rw [hl]; simp⟩
      · obtain ⟨l, ls, hl⟩ := List.exists_cons_of_ne_nil hn
        exact ⟨.trafo, l, by rw [hl]; simp⟩
    obtain ⟨s, l, hl⟩ := this
    obtain ⟨x, y, bx, _, _, hx, _⟩ := h.ends s l hl
    rw [h0] at hx
    simp at hx
  have hc := hcomp net.buses.length es hlt
  obtain ⟨comps, hcomps⟩ : ∃ comps, comps = components net.buses.length es := ⟨_, rfl⟩
  rw [← hcomps] at hc
  have hCnd := (hc.perm.nodup_iff).2 List.nodup_range
  have hClt : ∀ C ∈ comps, ∀ x ∈ C, x < net.buses.length := by
    intro C hC x hx
    exact List.mem_range.1 (hc.perm.subset (List.mem_flatten.2 ⟨C, hC, hx⟩))
  have hCn : ∀ C ∈ comps, C.Nodup := (List.nodup_flatten.1 hCnd).1
  have hclosed : ∀ C ∈ comps, ∀ s, ∀ l ∈ net.series s, ∀ x y, l.busPos = [x, y] → (x ∈ C ↔ y ∈ C) := by
    intro C hC s l hl x y hp
    obtain ⟨e, he, hp2⟩ := hto s l hl
    rw [hp] at hp2
    simp only [List.cons.injEq, and_true] at hp2
    rw [hp2.1, hp2.2]
    exact hc.edges e he C hC
  obtain ⟨isl, hisl, hF⟩ : ∃ isl, comps.mapM (islandOf net) = .ok isl ∧ List.Forall₂ (fun C I => (TpOk I ∧ GensFit I) ∧ I.buses.map busData = (C.filterMap (fun i => net.buses[i]?)).map busData ∧
      (∀ s, (I.series s).map lineData = ((islandSer net C s).filterMap (fun i => (net.series s)[i]?)).map lineData) ∧
      (∀ g, (I.gens g).map genData = ((islandGen net C g).filterMap (fun i => (net.gens g)[i]?)).map genData)) comps isl := by
    have hone : ∀ C ∈ comps, ∃ I, islandOf net C = .ok I ∧ (TpOk I ∧ GensFit I) ∧ I.buses.map busData = (C.filterMap (fun i => net.buses[i]?)).map busData ∧
      (∀ s, (I.series s).map lineData = ((islandSer net C s).filterMap (fun i => (net.series s)[i]?)).map lineData) ∧
      (∀ g, (I.gens g).map genData = ((islandGen net C g).filterMap (fun i => (net.gens g)[i]?)).map genData) :=
      fun C hC => islandOf_spec h hg (hClt C hC) (hCn C hC) (hclosed C hC)
    clear hclosed hCn hClt hCnd hc hcomps
    induction comps with
    | nil => exact ⟨[], rfl, List.Forall₂.nil⟩
    | cons C comps ih =>
      obtain ⟨isl, e1, e2⟩ := ih (fun C' h' => hone C' (List.mem_cons_of_mem _ h'))
      obtain ⟨I, e3, e4⟩ := hone C List.mem_cons_self
      refine ⟨I :: isl, ?_, List.Forall₂.cons e4 e2⟩
      rw [List.mapM_cons, e3, e1]
      rfl
  have hflat : ∀ {β : Type} (f : TpNet → List β) (k : List Nat → List β), (∀ C I, (TpOk I ∧ GensFit I) ∧ I.buses.map busData = (C.filterMap (fun i => net.buses[i]?)).map busData ∧
      (∀ s, (I.series s).map lineData = ((islandSer net C s).filterMap (fun i => (net.series s)[i]?)).map lineData) ∧
      (∀ g, (I.gens g).map genData = ((islandGen net C g).filterMap (fun i => (net.gens g)[i]?)).map genData) → f I = k C) → isl.flatMap f = comps.flatMap k := by
    intro β f k hfk
    clear hisl hclosed hCn hClt hCnd hc hcomps
    induction hF with
    | nil => rfl
    | cons h1 _ ih => rw [List.flatMap_cons, List.flatMap_cons, ih, hfk _ _ h1]
  have hback : ∀ I ∈ isl, ∃ C ∈ comps, (TpOk I ∧ GensFit I) ∧ I.buses.map busData = (C.filterMap (fun i => net.buses[i]?)).map busData := by
    intro I hI
    obtain ⟨i, hi, rfl⟩ := List.mem_iff_getElem.1 hI
    have hi2 : i < comps.length := by rw [hF.length_eq]; exact hi
    have := (List.forall₂_iff_get.1 hF).2 i hi2 hi
    exact ⟨_, List.getElem_mem hi2, this.1, this.2.1⟩
  have hnum : ∀ (I : TpNet) (C : List Nat), I.buses.map busData = (C.filterMap (fun i => net.buses[i]?)).map busData →
      ∀ n, n ∈ I.buses.map (·.number) ↔ ∃ x ∈ C, ∃ b, net.buses[x]? = some b ∧ b.number = n := by
    intro I C hd n
    have : I.buses.map (·.number) = (C.filterMap (fun i => net.buses[i]?)).map (·.number) := by
      have := congrArg (List.map (fun d => d.1)) hd
      rw [List.map_map, List.map_map] at this
      exact this
    rw [this, List.mem_map]
    constructor
    · rintro ⟨b, hb, rfl⟩
      obtain ⟨x, hx, hxb⟩ := List.mem_filterMap.1 hb
      exact ⟨x, hx, b, hxb, rfl⟩
    · rintro ⟨x, hx, b, hb, rfl⟩
      exact ⟨b, List.mem_filterMap.2 ⟨x, hx, hb⟩, rfl⟩
  refine ⟨isl, ?_, fun I hI => (hback I hI).choose_spec.2.1, ?_, ?_, ?_, ?_, ?_⟩
  · unfold findIslands
    rw [if_neg hbne, hes]
    simp only [bind, Except.bind]
    rw [← hcomps]
    exact hisl
  · rw [hflat (fun I => I.buses.map busData) (fun C => (C.filterMap (fun i => net.buses[i]?)).map busData) (fun C I hCI => hCI.2.1)]
    have e : comps.flatMap (fun C => (C.filterMap (fun i => net.buses[i]?)).map busData) = (comps.flatten.filterMap (fun i => net.buses[i]?)).map busData := by
      clear hclosed hCn hClt hCnd hc hcomps hisl hF hflat hback
      induction comps with
      | nil => rfl
      | cons C comps ih => rw [List.flatMap_cons, ih, List.flatten_cons, List.filterMap_append, List.map_append]
    rw [e]
    have := (hc.perm.filterMap (fun i => net.buses[i]?)).map busData
    rw [range_filterMap] at this
    exact this
  · intro s
    rw [hflat (fun I => (I.series s).map lineData) (fun C => ((islandSer net C s).filterMap (fun i => (net.series s)[i]?)).map lineData) (fun C I hCI => hCI.2.2.1 s)]
    have e : comps.flatMap (fun C => ((islandSer net C s).filterMap (fun i => (net.series s)[i]?)).map lineData) =
        ((comps.flatMap (fun C => islandSer net C s)).filterMap (fun i => (net.series s)[i]?)).map lineData := by
      clear hclosed hCn hClt hCnd hc hcomps hisl hF hflat hback
      induction comps with
      | nil => rfl
      | cons C comps ih => rw [List.flatMap_cons, ih, List.flatMap_cons, List.filterMap_append, List.map_append]
    rw [e]
    have hp : (comps.flatMap (fun C => islandSer net C s)).Perm (List.range (net.series s).length) := by
      apply flatMap_perm
      · intro C _
        exact nodup_eraseDups _ _ (Nat.le_refl _)
      · intro C _
        exact islandSer_lt h
      · intro i j C D hi hj hij e heC heD
        obtain ⟨l, hl⟩ : ∃ l, (net.series s)[e]? = some l := ⟨_, List.getElem?_eq_getElem (islandSer_lt h e heC)⟩
        obtain ⟨x, hx, hxl⟩ := (mem_islandSer h hl).1 heC
        obtain ⟨y, hy, hyl⟩ := (mem_islandSer h hl).1 heD
        obtain ⟨u, v, _, _, _, _, _, hp, _⟩ := h.ends s l (List.mem_of_getElem? hl)
        have hcl := hclosed D (List.mem_of_getElem? hj) s l (List.mem_of_getElem? hl) u v hp
        rw [hp] at hxl hyl
        simp only [List.mem_cons, List.not_mem_nil, or_false] at hxl hyl
        have hxD : x ∈ D := by
          rcases hxl with rfl | rfl <;> rcases hyl with rfl | rfl
          · exact hy
          · exact hcl.2 hy
          · exact hcl.1 hy
          · exact hy
        exact flatten_disjoint hCnd hi hj hij hx hxD
      · intro e he
        have hl := List.getElem?_eq_getElem he
        obtain ⟨u, v, _, _, _, hu, _, hp, _⟩ := h.ends s _ (List.mem_of_getElem? hl)
        have : u ∈ comps.flatten := hc.perm.mem_iff.2 (List.mem_range.2 (List.getElem?_eq_some_iff.1 hu).1)
        obtain ⟨C, hC, huC⟩ := List.mem_flatten.1 this
        exact ⟨C, hC, (mem_islandSer h hl).2 ⟨u, huC, by rw [hp]; simp⟩⟩
    have := (hp.filterMap (fun i => (net.series s)[i]?)).map lineData
    rw [range_filterMap] at this
    exact this
  · intro g
    rw [hflat (fun I => (I.gens g).map genData) (fun C => ((islandGen net C g).filterMap (fun i => (net.gens g)[i]?)).map genData) (fun C I hCI => hCI.2.2.2 g)]
    have hall : (comps.flatMap (fun C => (C.filterMap (fun i => net.buses[i]?)).flatMap (fun b => b.genPos g))).Perm (net.buses.flatMap (fun b => b.genPos g)) := by
      have e : comps.flatMap (fun C => (C.filterMap (fun i => net.buses[i]?)).flatMap (fun b => b.genPos g)) = (comps.flatten.filterMap (fun i => net.buses[i]?)).flatMap (fun b => b.genPos g) := by
        clear hclosed hCn hClt hCnd hc hcomps hisl hF hflat hback
        induction comps with
        | nil => rfl
        | cons C comps ih => rw [List.flatMap_cons, ih, List.flatten_cons, List.filterMap_append, List.flatMap_append]
      rw [e]
      have := (hc.perm.filterMap (fun i => net.buses[i]?)).flatMap_right (fun b => b.genPos g)
      rw [range_filterMap] at this
      exact this
    have hnd2 := hall.nodup_iff.2 (hgn g)
    have hgen : ∀ C ∈ comps, islandGen net C g = (C.filterMap (fun i => net.buses[i]?)).flatMap (fun b => b.genPos g) := by
      intro C hC
      unfold islandGen
      exact eraseDups_of_nodup _ _ (Nat.le_refl _) ((List.nodup_flatMap.1 hnd2).1 C hC)
    have e : comps.flatMap (fun C => ((islandGen net C g).filterMap (fun i => (net.gens g)[i]?)).map genData) =
        ((comps.flatMap (fun C => (C.filterMap (fun i => net.buses[i]?)).flatMap (fun b => b.genPos g))).filterMap (fun i => (net.gens g)[i]?)).map genData := by
      clear hclosed hCn hClt hCnd hc hcomps hisl hF hflat hback hall hnd2
      induction comps with
      | nil => rfl
      | cons C comps ih =>
        rw [List.flatMap_cons, ih (fun C' h' => hgen C' (List.mem_cons_of_mem _ h')), List.flatMap_cons, List.filterMap_append, List.map_append, hgen C List.mem_cons_self]
    rw [e]
    exact (hall.filterMap _).map _
  · intro I hI a ha b hb
    obtain ⟨C, hC, _, hd⟩ := hback I hI
    obtain ⟨x, hx, bx, hbx, ex⟩ := (hnum I C hd a.number).1 (List.mem_map_of_mem ha)
    obtain ⟨y, hy, by', hby, ey⟩ := (hnum I C hd b.number).1 (List.mem_map_of_mem hb)
    have hchain := hc.connected C hC x hx y hy
    rw [← ex, ← ey]
    have key : ∀ z, Relation.ReflTransGen (fun a b => (a, b) ∈ es ∨ (b, a) ∈ es) x z → ∀ bz, net.buses[z]? = some bz → ChainOf net bx.number bz.number := by
      intro z hz
      induction hz with
      | refl =>
        intro bz hbz
        rw [hbx] at hbz
        cases hbz
        exact Relation.ReflTransGen.refl
      | tail h1 h2 ih =>
        rename_i u w
        intro bz hbz
        have hu : ∃ e ∈ es, (e.1 = u ∧ e.2 = w ∨ e.1 = w ∧ e.2 = u) := by
          rcases h2 with h2 | h2
          · exact ⟨_, h2, Or.inl ⟨rfl, rfl⟩⟩
          · exact ⟨_, h2, Or.inr ⟨rfl, rfl⟩⟩
        obtain ⟨e, he, huw⟩ := hu
        have hul : u < net.buses.length := by
          have := hlt e he
          rcases huw with ⟨h1, h2⟩ | ⟨h1, h2⟩ <;> omega
        obtain ⟨s, l, hl, hp⟩ := hfrom e he
        have hbu := List.getElem?_eq_getElem hul
        refine Relation.ReflTransGen.tail (ih _ hbu) ⟨s, l, hl, ?_, ?_⟩
        · rw [ends_mem h.numbers (h.ends s l hl) hbu, hp]
          rcases huw with ⟨h1, h2⟩ | ⟨h1, h2⟩ <;> simp [← h1, ← h2]
        · rw [ends_mem h.numbers (h.ends s l hl) hbz, hp]
          rcases huw with ⟨h1, h2⟩ | ⟨h1, h2⟩ <;> simp [← h1, ← h2]
    exact key y hchain by' hby
  · intro I hI a ha n hn
    obtain ⟨C, hC, _, hd⟩ := hback I hI
    induction hn with
    | refl => exact List.mem_map_of_mem ha
    | tail h1 h2 ih =>
      rename_i u w
      obtain ⟨s, l, hl, hu, hw⟩ := h2
      obtain ⟨x, hx, bx, hbx, ex⟩ := (hnum I C hd u).1 ih
      rw [hnum I C hd]
      obtain ⟨p, q, bp, bq, _, hp, hq, hpq, hbn⟩ := h.ends s l hl
      have hcl := hclosed C hC s l hl p q hpq
      have hxl := (ends_mem h.numbers (h.ends s l hl) hbx).1 (ex ▸ hu)
      rw [hpq] at hxl
      simp only [List.mem_cons, List.not_mem_nil, or_false] at hxl
      have hpC : p ∈ C := by
        rcases hxl with rfl | rfl
        · exact hx
        · exact hcl.2 hx
      have hw2 : w = bp.number ∨ w = bq.number := by
        rcases hbn with e | e <;> rw [e] at hw <;> simp at hw <;> tauto
      rcases hw2 with rfl | rfl
      · exact ⟨p, hpC, bp, hp, rfl⟩
      · exact ⟨q, hcl.1 hpC, bq, hq, rfl⟩


/-- numbers of two buses joined by a chain of elements in service -/
def Linked (net : TpNet) : Int → Int → Prop := Relation.ReflTransGen (fun a b => ∃ s, ∃ l ∈ net.series s, l.status ≠ 0 ∧ a ∈ l.buses ∧ b ∈ l.buses)

/-- the isolated generators of a type -/
def isoGens (iso : Isolates) : GenT → List TpGen
  | .conv => iso.conv
  | .res => iso.res
  | .hydro => iso.hydro

/-- C131: the isolated buses and the islands share out the network.  Every bus appears once, in the isolated buses or in one island; a bus is isolated exactly when no
element in service touches it; every element in service is in exactly one island and no element out of service is in any; every generator appears once; the tables of an
island fit (the positions that elements, buses and generators keep of each other are right); two buses are in the same island exactly when a chain of elements in service joins them -/
theorem C131_islands (components : Nat → List (Nat × Nat) → List (List Nat)) (hcomp : ∀ n es, (∀ e ∈ es, e.1 < n ∧ e.2 < n) → CompOk n es (components n es))
    (net : TpNet) (h : TpOk net) (hg : GenListed net) (hs : ∃ s, ∃ l ∈ net.series s, l.status ≠ 0) :
    ∃ iso isl, islandsIsolations components net = .ok (iso, isl) ∧
      (iso.nodes.map busData ++ isl.flatMap (fun I => I.buses.map busData)).Perm (net.buses.map busData) ∧
      (∀ b ∈ iso.nodes, ∀ s, ∀ l ∈ net.series s, l.status ≠ 0 → b.number ∉ l.buses) ∧
      (∀ I ∈ isl, ∀ b ∈ I.buses, ∃ s, ∃ l ∈ net.series s, l.status ≠ 0 ∧ b.number ∈ l.buses) ∧
      (∀ s, (isl.flatMap (fun I => (I.series s).map lineData)).Perm (((net.series s).filter (fun l => decide (l.status ≠ 0))).map lineData)) ∧
      (∀ g, ((isoGens iso g).map genData ++ isl.flatMap (fun I => (I.gens g).map genData)).Perm ((net.gens g).map genData)) ∧
      (∀ I ∈ isl, TpOk I ∧ GensFit I) ∧
      (∀ I ∈ isl, ∀ a ∈ I.buses, ∀ n, n ∈ I.buses.map (·.number) ↔ Linked net a.number n) := by
  obtain ⟨d1, d2, d3, w, d4⟩ := dropDisconnected_spec h
  have hdg : ∀ g, (dropDisconnected net).buses.flatMap (fun b => b.genPos g) = net.buses.flatMap (fun b => b.genPos g) := by
    intro g
    rw [d4, List.flatMap_map]
  have hg2 : GenListed (dropDisconnected net) := by
    intro g
    rw [hdg, d3]
    exact hg g
  have hne : (dropDisconnected net).series .line ≠ [] ∨ (dropDisconnected net).series .trafo ≠ [] := by
    obtain ⟨s, l, hl, hst⟩ := hs
    have : (dropDisconnected net).series s ≠ [] := by
      rw [d2]
      apply List.ne_nil_of_mem (a := l)
      rw [List.mem_filter]
      exact ⟨hl, by simpa using hst⟩
    cases s with
    | line => exact Or.inl this
    | trafo => exact Or.inr this
  obtain ⟨iso, i1, i2, i3, i4, i5, ⟨w2, i6⟩, i7, i8⟩ := findIsolates_spec d1 hg2 hne
  have hlen : ∀ g, (iso.net.gens g).length = ((dropDisconnected net).gens g).length := by
    intro g
    have := congrArg List.length (i7 g)
    simpa using this
  have hpermg : ∀ g, (iso.nodes.flatMap (fun b => b.genPos g) ++ iso.net.buses.flatMap (fun b => b.genPos g)).Perm (List.range (net.gens g).length) := by
    intro g
    rw [← List.flatMap_append]
    have := i3.flatMap_right (fun b => b.genPos g)
    rw [hdg] at this
    exact this.trans (hg g)
  have hgn : ∀ g, (iso.net.buses.flatMap (fun b => b.genPos g)).Nodup := fun g => (List.nodup_append.1 ((hpermg g).nodup_iff.2 List.nodup_range)).2.1
  have hgr : ∀ g, ∀ b ∈ iso.net.buses, ∀ i ∈ b.genPos g, i < (iso.net.gens g).length := by
    intro g b hb i hi
    rw [hlen, d3]
    exact List.mem_range.1 ((hpermg g).subset (List.mem_append_right _ (List.mem_flatMap.2 ⟨b, hb, hi⟩)))
  have hne2 : iso.net.series .line ≠ [] ∨ iso.net.series .trafo ≠ [] := by
    rw [i6, i6]
    simpa using hne
  obtain ⟨isl, l1, l2, l3, l4, l5, l6, l7⟩ := findIslands_spec i2 hgn hgr hne2 components hcomp
  have hserdata : ∀ s, (iso.net.series s).map lineData = ((net.series s).filter (fun l => decide (l.status ≠ 0))).map lineData := by
    intro s
    rw [i6, List.map_map, d2]
    rfl
  have hstep : ∀ a b, (∃ s, ∃ l ∈ iso.net.series s, a ∈ l.buses ∧ b ∈ l.buses) ↔ ∃ s, ∃ l ∈ net.series s, l.status ≠ 0 ∧ a ∈ l.buses ∧ b ∈ l.buses := by
    intro a b
    constructor
    · rintro ⟨s, l, hl, hab⟩
      rw [i6, d2] at hl
      obtain ⟨l0, hl0, rfl⟩ := List.mem_map.1 hl
      rw [List.mem_filter] at hl0
      exact ⟨s, l0, hl0.1, by simpa using hl0.2, hab⟩
    · rintro ⟨s, l, hl, hst, hab⟩
      refine ⟨s, { l with busPos := w2 l }, ?_, hab⟩
      rw [i6, d2]
      refine List.mem_map.2 ⟨l, ?_, rfl⟩
      rw [List.mem_filter]
      exact ⟨hl, by simpa using hst⟩
  have hlinked : ∀ a b, Linked net a b ↔ ChainOf iso.net a b := by
    intro a b
    unfold Linked ChainOf
    have : (fun a b => ∃ s, ∃ l ∈ iso.net.series s, a ∈ l.buses ∧ b ∈ l.buses) = (fun a b => ∃ s, ∃ l ∈ net.series s, l.status ≠ 0 ∧ a ∈ l.buses ∧ b ∈ l.buses) := by
      funext a b
      exact propext (hstep a b)
    rw [this]
  refine ⟨iso, isl, ?_, ?_, ?_, ?_, ?_, ?_, l2, ?_⟩
  · unfold islandsIsolations
    rw [i1]
    simp only [bind, Except.bind]
    rw [l1]
  · have e : (dropDisconnected net).buses.map busData = net.buses.map busData := by
      rw [d4, List.map_map]
      rfl
    rw [← e]
    exact (List.Perm.append_left _ l3).trans (by rw [← List.map_append]; exact i3.map busData)
  · intro b hb s l hl hst
    apply i4 b hb s l
    rw [d2, List.mem_filter]
    exact ⟨hl, by simpa using hst⟩
  · intro I hI b hb
    have : busData b ∈ iso.net.buses.map busData := l3.subset (List.mem_flatMap.2 ⟨I, hI, List.mem_map_of_mem hb⟩)
    obtain ⟨b', hb', e⟩ := List.mem_map.1 this
    have e2 : b'.number = b.number := congrArg (fun d => d.1) e
    obtain ⟨s, l, hl, hm⟩ := i5 b' hb'
    rw [d2, List.mem_filter] at hl
    exact ⟨s, l, hl.1, by simpa using hl.2, e2 ▸ hm⟩
  · intro s
    rw [← hserdata]
    exact l4 s
  · intro g
    have e1 : (isoGens iso g).map genData = ((iso.nodes.flatMap (fun b => b.genPos g)).filterMap (fun i => ((net.gens g).map genData)[i]?)) := by
      have : isoGens iso g = (iso.nodes.flatMap (fun b => b.genPos g)).filterMap (fun i => (net.gens g)[i]?) := by
        have := i8 g
        rw [d3] at this
        rw [← this]
        cases g <;> rfl
      rw [this, List.map_filterMap]
      apply List.filterMap_congr
      intro i _
      rw [List.getElem?_map]
    have e2 : ((iso.net.buses.flatMap (fun b => b.genPos g)).filterMap (fun i => (iso.net.gens g)[i]?)).map genData =
        (iso.net.buses.flatMap (fun b => b.genPos g)).filterMap (fun i => ((net.gens g).map genData)[i]?) := by
      rw [List.map_filterMap]
      apply List.filterMap_congr
      intro i _
      have : (iso.net.gens g).map genData = (net.gens g).map genData := by
        have := i7 g
        rw [d3] at this
        exact this
      rw [← this, List.getElem?_map]
    have h5 := l5 g
    rw [e2] at h5
    rw [e1]
    refine (List.Perm.append_left _ h5).trans ?_
    rw [← List.filterMap_append]
    have := (hpermg g).filterMap (fun i => ((net.gens g).map genData)[i]?)
    rw [show (net.gens g).length = ((net.gens g).map genData).length by simp, range_filterMap] at this
    exact this
  · intro I hI a ha n
    rw [hlinked]
    constructor
    · intro hn
      obtain ⟨b, hb, rfl⟩ := List.mem_map.1 hn
      exact l6 I hI a ha b hb
    · exact l7 I hI a ha n

/-! ## the components exist -/

open Classical in
/-- components by definition: for every position that is the first of its component, the positions joined to it -/
noncomputable def refComponents (n : Nat) (es : List (Nat × Nat)) : List (List Nat) :=
  ((List.range n).filter (fun x => decide (∀ y, y < x → ¬ Relation.ReflTransGen (fun a b => (a, b) ∈ es ∨ (b, a) ∈ es) x y))).map
    (fun x => (List.range n).filter (fun y => decide (Relation.ReflTransGen (fun a b => (a, b) ∈ es ∨ (b, a) ∈ es) x y)))

/-- the hypothesis on the components is met by their definition -/
theorem refComponents_ok (n : Nat) (es : List (Nat × Nat)) (hes : ∀ e ∈ es, e.1 < n ∧ e.2 < n) : CompOk n es (refComponents n es) := by
  obtain ⟨R, hR⟩ : ∃ R : Nat → Nat → Prop, R = Relation.ReflTransGen (fun a b => (a, b) ∈ es ∨ (b, a) ∈ es) := ⟨_, rfl⟩
  have hsymm : ∀ x y, R x y → R y x := by
    intro x y h
    rw [hR] at h ⊢
    induction h with
    | refl => exact Relation.ReflTransGen.refl
    | tail _ h2 ih => exact Relation.ReflTransGen.head (Or.symm h2) ih
  have htrans : ∀ x y z, R x y → R y z → R x z := by
    intro x y z h1 h2
    rw [hR] at h1 h2 ⊢
    exact h1.trans h2
  have hrefl : ∀ x, R x x := by
    intro x
    rw [hR]
  have hmem : ∀ C, C ∈ refComponents n es ↔ ∃ x, x < n ∧ (∀ y, y < x → ¬ R x y) ∧ C = (List.range n).filter (fun y => @decide (R x y) (Classical.propDecidable _)) := by
    intro C
    unfold refComponents
    rw [← hR, List.mem_map]
    constructor
    · rintro ⟨x, hx, rfl⟩
      rw [List.mem_filter] at hx
      exact ⟨x, List.mem_range.1 hx.1, by simpa using hx.2, rfl⟩
    · rintro ⟨x, hx, h1, rfl⟩
      refine ⟨x, ?_, rfl⟩
      rw [List.mem_filter]
      exact ⟨List.mem_range.2 hx, by simpa using h1⟩
  have hin : ∀ x y, y ∈ (List.range n).filter (fun y => @decide (R x y) (Classical.propDecidable _)) ↔ y < n ∧ R x y := by
    intro x y
    rw [List.mem_filter, List.mem_range]
    simp
  refine ⟨?_, ?_, ?_⟩
  · rw [List.perm_ext_iff_of_nodup _ List.nodup_range]
    · intro y
      rw [List.mem_flatten, List.mem_range]
      constructor
      · rintro ⟨C, hC, hy⟩
        obtain ⟨x, _, _, rfl⟩ := (hmem C).1 hC
        exact ((hin x y).1 hy).1
      · intro hy
        have hex : ∃ x, R y x := ⟨y, hrefl y⟩
        classical
        have hm := Nat.find_spec hex
        refine ⟨_, (hmem _).2 ⟨Nat.find hex, lt_of_le_of_lt (Nat.find_min' hex (hrefl y)) hy, ?_, rfl⟩, (hin _ y).2 ⟨hy, hsymm _ _ hm⟩⟩
        intro z hz hRz
        exact Nat.find_min hex hz (htrans _ _ _ hm hRz)
    · rw [List.nodup_flatten]
      constructor
      · intro C hC
        obtain ⟨x, _, _, rfl⟩ := (hmem C).1 hC
        exact List.nodup_range.filter _
      · unfold refComponents
        rw [← hR, List.pairwise_map]
        refine List.Pairwise.imp_of_mem (R := fun a b => a < b) ?_ (List.pairwise_lt_range.sublist List.filter_sublist)
        intro a b ha hb hab z hz hz2
        have ha' := (hin a z).1 hz
        have hb' := (hin b z).1 hz2
        rw [List.mem_filter] at hb
        have : ∀ y, y < b → ¬ R b y := by simpa using hb.2
        exact this a hab (htrans _ _ _ hb'.2 (hsymm _ _ ha'.2))
  · intro e he C hC
    obtain ⟨x, _, _, rfl⟩ := (hmem C).1 hC
    rw [hin, hin]
    have h1 : R e.1 e.2 := by
      rw [hR]
      exact Relation.ReflTransGen.single (Or.inl he)
    exact ⟨fun h => ⟨(hes e he).2, htrans _ _ _ h.2 h1⟩, fun h => ⟨(hes e he).1, htrans _ _ _ h.2 (hsymm _ _ h1)⟩⟩
  · intro C hC x hx y hy
    obtain ⟨z, _, _, rfl⟩ := (hmem C).1 hC
    rw [← hR]
    exact htrans _ _ _ (hsymm _ _ ((hin z x).1 hx).2) ((hin z y).1 hy).2


/-! ## networks without elements in service -/

theorem dropDisconnected_series (net : TpNet) (t : Series) : (dropDisconnected net).series t = (net.series t).filter (fun x => decide (x.status ≠ 0)) := by
  have one : ∀ (n : TpNet) (s t : Series), (dropSeries n s).series t = if t = s then (n.series s).filter (fun x => decide (x.status ≠ 0)) else n.series t := by
    intro n s t
    unfold dropSeries
    split
    · rename_i h0
      split
      · rename_i ht
        subst ht
        rw [← deleteAt_outOfService, h0]
        unfold deleteAt
        simp
      · rfl
    · rw [← deleteAt_outOfService]
      rfl
  unfold dropDisconnected
  rw [one, one]
  cases t with
  | line => rw [if_neg (by simp), one]; simp
  | trafo => simp

/-- **C130** (violated: a network without any element in service, all its buses isolated, is valid).  The analysis stops with an AssertionError. -/
theorem C130_no_elements_violated (components : Nat → List (Nat × Nat) → List (List Nat)) (net : TpNet) (hs : ∀ s, ∀ l ∈ net.series s, l.status = 0) :
    islandsIsolations components net = .error .assertion := by
  have h0 : ∀ t, (dropDisconnected net).series t = [] := by
    intro t
    rw [dropDisconnected_series, List.filter_eq_nil_iff]
    intro l hl
    simp [hs t l hl]
  unfold islandsIsolations findIsolates
  split
  · rfl
  · unfold netEdges
    rw [if_pos ⟨h0 _, h0 _⟩]
    rfl

/-- **C130, where it holds**: with at least one series element in service the procedure returns a partition (its
content is C131), so the assertion is raised exactly by the networks with no element in service. -/
theorem C130_succeeds_partial (components : Nat → List (Nat × Nat) → List (List Nat)) (hcomp : ∀ n es, (∀ e ∈ es, e.1 < n ∧ e.2 < n) → CompOk n es (components n es))
    (net : TpNet) (h : TpOk net) (hg : GenListed net) :
    (∃ iso isl, islandsIsolations components net = .ok (iso, isl)) ↔ ∃ s, ∃ l ∈ net.series s, l.status ≠ 0 := by
  constructor
  · rintro ⟨iso, isl, he⟩
    apply Classical.byContradiction
    intro hn
    have := C130_no_elements_violated components net (fun s l hl => Classical.byContradiction fun hc => hn ⟨s, l, hl, hc⟩)
    rw [this] at he
    cases he
  · intro hs
    obtain ⟨iso, isl, he, _⟩ := C131_islands components hcomp net h hg hs
    exact ⟨iso, isl, he⟩

/-! ## the order of the positions -/

theorem relPos_loop (keys : List Int) (a : Int) (hk : keys.Nodup) (i : Nat) : (relPos keys i [a, a]).length ≤ 1 := by
  induction keys generalizing i with
  | nil => simp [relPos]
  | cons k ks ih =>
    rw [List.nodup_cons] at hk
    unfold relPos
    split
    · rename_i hm
      simp only [List.mem_cons, List.not_mem_nil, or_false, or_self] at hm
      subst hm
      have : ∀ (ks : List Int) (i : Nat), k ∉ ks → relPos ks i ([k, k].erase k) = [] := by
        intro ks
        induction ks with
        | nil => intro i _; rfl
        | cons c cs ihc =>
          intro i hc
          rw [List.mem_cons, not_or] at hc
          unfold relPos
          rw [if_neg (by simp; exact fun e => hc.1 e.symm), ihc _ hc.2]
      rw [this ks (i + 1) hk.1]
      simp
    · exact ih hk.2 _

/-- **C132** (positive part).  Elements that name their buses in the order of the bus table get the positions in that order. (Missing: the other elements, for which it fails.) -/
theorem C132_order_partial (net : TpNet) (hn : (net.buses.map (·.number)).Nodup) (s : Series) (l : TpLine) (hl : l ∈ net.series s) (x y : Nat) (bx by' : TpBus)
    (hx : net.buses[x]? = some bx) (hy : net.buses[y]? = some by') (hxy : x < y) (hb : l.buses = [bx.number, by'.number]) :
    ∃ l' ∈ (updateAll net).series s, lineData l' = lineData l ∧ l'.busPos = [x, y] := by
  have hm : ({ l with busPos := if net.buses = [] then [] else relPos (net.buses.map (·.number)) 0 l.buses } : TpLine) ∈ (updateAll net).series s := List.mem_map.2 ⟨l, hl, rfl⟩
  refine ⟨_, hm, rfl, ?_⟩
  have hne : bx.number ≠ by'.number := fun e => by
    have := number_inj hn hx hy e
    omega
  obtain ⟨i, j, hij, hp, hk⟩ := relPos_two (net.buses.map (·.number)) bx.number by'.number hn hne (List.mem_map_of_mem (List.mem_of_getElem? hx)) (List.mem_map_of_mem (List.mem_of_getElem? hy))
  simp only
  rw [if_neg (List.ne_nil_of_mem (List.mem_of_getElem? hx)), hb, hp]
  have get : ∀ (i : Nat) (n : Int), (net.buses.map (·.number))[i]? = some n → ∃ b, net.buses[i]? = some b ∧ b.number = n := by
    intro i n h
    rw [List.getElem?_map] at h
    cases hb : net.buses[i]? with
    | none => rw [hb] at h; cases h
    | some b =>
      rw [hb] at h
      exact ⟨b, rfl, by simpa using h⟩
  rcases hk with ⟨k1, k2⟩ | ⟨k1, k2⟩
  · obtain ⟨b1, g1, e1⟩ := get _ _ k1
    obtain ⟨b2, g2, e2⟩ := get _ _ k2
    rw [number_inj hn g1 hx e1, number_inj hn g2 hy e2]
  · obtain ⟨b1, g1, e1⟩ := get _ _ k1
    obtain ⟨b2, g2, e2⟩ := get _ _ k2
    have := number_inj hn g1 hy e1
    have := number_inj hn g2 hx e2
    omega

/-- **C132** (violated).  The positions of the buses of an element follow the order of the buses, not the order in which the element names them: once positions are
updated, an element from bus `a` to bus `b` has the position of `b` first whenever `b` comes before `a`; and a network with an element from a bus to itself cannot be
analysed (IndexError). -/
theorem C132_order_violated (net : TpNet) (hn : (net.buses.map (·.number)).Nodup) :
    (∀ s, ∀ l ∈ net.series s, ∀ (x y : Nat) (bx by' : TpBus), net.buses[x]? = some bx → net.buses[y]? = some by' → y < x → l.buses = [bx.number, by'.number] →
      ∃ l' ∈ (updateAll net).series s, lineData l' = lineData l ∧ l'.busPos = [y, x]) ∧
    ((∃ s, ∃ l ∈ net.series s, ∃ a, l.buses = [a, a]) → netEdges (updateAll net) = .error .index) := by
  constructor
  · intro s l hl x y bx by' hx hy hyx hb
    have hm : ({ l with busPos := if net.buses = [] then [] else relPos (net.buses.map (·.number)) 0 l.buses } : TpLine) ∈ (updateAll net).series s := List.mem_map.2 ⟨l, hl, rfl⟩
    refine ⟨_, hm, rfl, ?_⟩
    have hne : bx.number ≠ by'.number := fun e => by
      have := number_inj hn hx hy e
      omega
    obtain ⟨i, j, hij, hp, hk⟩ := relPos_two (net.buses.map (·.number)) bx.number by'.number hn hne (List.mem_map_of_mem (List.mem_of_getElem? hx)) (List.mem_map_of_mem (List.mem_of_getElem? hy))
    simp only
    rw [if_neg (List.ne_nil_of_mem (List.mem_of_getElem? hx)), hb, hp]
    have get : ∀ (i : Nat) (n : Int), (net.buses.map (·.number))[i]? = some n → ∃ b, net.buses[i]? = some b ∧ b.number = n := by
      intro i n h
      rw [List.getElem?_map] at h
      cases hb : net.buses[i]? with
      | none => rw [hb] at h; cases h
      | some b =>
        rw [hb] at h
        exact ⟨b, rfl, by simpa using h⟩
    rcases hk with ⟨k1, k2⟩ | ⟨k1, k2⟩
    · obtain ⟨b1, g1, e1⟩ := get _ _ k1
      obtain ⟨b2, g2, e2⟩ := get _ _ k2
      have := number_inj hn g1 hx e1
      have := number_inj hn g2 hy e2
      omega
    · obtain ⟨b1, g1, e1⟩ := get _ _ k1
      obtain ⟨b2, g2, e2⟩ := get _ _ k2
      rw [number_inj hn g1 hy e1, number_inj hn g2 hx e2]
  · rintro ⟨s, l, hl, a, hb⟩
    have hm : ({ l with busPos := if net.buses = [] then [] else relPos (net.buses.map (·.number)) 0 l.buses } : TpLine) ∈ (updateAll net).series s := List.mem_map.2 ⟨l, hl, rfl⟩
    obtain ⟨l', hl'⟩ : ∃ l', l' = ({ l with busPos := if net.buses = [] then [] else relPos (net.buses.map (·.number)) 0 l.buses } : TpLine) := ⟨_, rfl⟩
    rw [← hl'] at hm
    have hlen : l'.busPos.length ≤ 1 := by
      rw [hl']
      simp only
      split
      · simp
      · rw [hb]
        exact relPos_loop _ a hn 0
    have hin : l' ∈ (updateAll net).series .line ++ (updateAll net).series .trafo := by
      cases s with
      | line => exact List.mem_append_left _ hm
      | trafo => exact List.mem_append_right _ hm
    have hcases : ∀ k : TpLine, lineEdge k = .error .index ∨ ∃ e, lineEdge k = .ok e := by
      intro k
      unfold lineEdge
      match k.busPos with
      | [] => exact Or.inl rfl
      | [x] => exact Or.inl rfl
      | x :: y :: r => exact Or.inr ⟨(x, y), rfl⟩
    unfold netEdges
    rw [if_neg, mapM_index lineEdge _ (fun k _ => hcases k) l' hin]
    · unfold lineEdge
      match h : l'.busPos with
      | [] => rfl
      | [x] => rfl
      | x :: y :: r =>
        rw [h] at hlen
        simp at hlen
    · rintro ⟨h1, h2⟩
      rw [h1, h2] at hin
      simp at hin

/-! ## deleting generators -/

theorem relPosO_none (l : List TpGen) : ∀ (i : Nat) (rem : List Int), relPosO (l.map genNumber) i rem = [] := by
  induction l with
  | nil => intro i rem; rfl
  | cons x l ih =>
    intro i rem
    rw [List.map_cons]
    exact ih (i + 1) rem

theorem deleteGens_pos (g : GenT) (net : TpNet) (pos : List Nat) : ∀ b ∈ (deleteGens g net pos).buses, b.genPos g = [] := by
  intro b hb
  obtain ⟨b0, _, rfl⟩ := List.mem_map.1 hb
  simp only [if_true]
  split
  · rfl
  · exact relPosO_none _ _ _

theorem dropSeries_pos {net : TpNet} {g : GenT} (h : ∀ b ∈ net.buses, b.genPos g = []) (s : Series) : ∀ b ∈ (dropSeries net s).buses, b.genPos g = [] := by
  unfold dropSeries
  split
  · exact h
  · intro b hb
    obtain ⟨b0, hb0, rfl⟩ := List.mem_map.1 hb
    exact h b0 hb0

theorem getObjects_mem {α : Type} {l : List α} {pos : List Nat} {r : List α} (h : getObjects l pos = .ok r) : ∀ a ∈ r, a ∈ l := by
  unfold getObjects at h
  rw [mapM_ok_iff] at h
  intro a ha
  obtain ⟨i, hi, rfl⟩ := List.mem_iff_getElem.1 ha
  have hi2 : i < pos.length := by rw [h.length_eq]; exact hi
  have := (List.forall₂_iff_get.1 h).2 i hi2 hi
  exact List.mem_of_getElem? ((pyGet_nat_iff _ _ _).1 this)

/-- **C133** (positive part).  Deleting generators of one type leaves exactly the other ones in the network and changes nothing for the other types: their generators, the
numbers and the positions that the buses list, and the buses themselves. (Missing: the positions of the type itself, which are lost.) -/
theorem C133_other_types_partial (g : GenT) (net : TpNet) (pos : List Nat) :
    (deleteGens g net pos).gens g = deleteAt (net.gens g) pos ∧
    (∀ t, t ≠ g → (deleteGens g net pos).gens t = net.gens t) ∧
    (deleteGens g net pos).series = net.series ∧
    (deleteGens g net pos).buses.map (·.number) = net.buses.map (·.number) ∧
    ∀ t, t ≠ g → (deleteGens g net pos).buses.map (fun b => b.genPos t) = net.buses.map (fun b => b.genPos t) := by
  refine ⟨by simp [deleteGens], fun t ht => by simp [deleteGens, ht], rfl, ?_, ?_⟩
  · simp [deleteGens, Function.comp_def]
  · intro t ht
    simp [deleteGens, Function.comp_def, ht]

/-- **C133** (violated: "deleting generators leaves the others at their buses").  After some generators of a type have been deleted no bus lists any generator of that type,
although the other ones are still in the network: no island and no list of isolated generators holds any of them. -/
theorem C133_delete_generators_violated (components : Nat → List (Nat × Nat) → List (List Nat)) (g : GenT) (net : TpNet) (pos : List Nat) :
    (deleteGens g net pos).gens g = deleteAt (net.gens g) pos ∧ (∀ b ∈ (deleteGens g net pos).buses, b.genPos g = []) ∧
    ∀ iso isl, islandsIsolations components (deleteGens g net pos) = .ok (iso, isl) → isoGens iso g = [] ∧ ∀ I ∈ isl, I.gens g = [] := by
  refine ⟨by simp [deleteGens], deleteGens_pos g net pos, ?_⟩
  intro iso isl h
  have hd : ∀ b ∈ (dropDisconnected (deleteGens g net pos)).buses, b.genPos g = [] := dropSeries_pos (dropSeries_pos (deleteGens_pos g net pos) .line) .trafo
  have hnone : ∀ bs : List TpBus, (∀ b ∈ bs, b.genPos g = []) → bs.flatMap (fun b => b.genPos g) = [] := by
    intro bs hbs
    rw [List.flatMap_eq_nil_iff]
    exact hbs
  unfold islandsIsolations at h
  rw [except_bind_ok] at h
  obtain ⟨iso', h1, h⟩ := h
  rw [except_bind_ok] at h
  obtain ⟨isl', h2, h⟩ := h
  simp only [Except.ok.injEq, Prod.mk.injEq] at h
  obtain ⟨rfl, rfl⟩ := h
  generalize dropDisconnected (deleteGens g net pos) = N at hd h1
  unfold findIsolates at h1
  split at h1
  · cases h1
  · rw [except_bind_ok] at h1
    obtain ⟨es, _, h1⟩ := h1
    rw [except_bind_ok] at h1
    obtain ⟨bs, hbs, h1⟩ := h1
    rw [except_bind_ok] at h1
    obtain ⟨c, hc, h1⟩ := h1
    rw [except_bind_ok] at h1
    obtain ⟨r, hr, h1⟩ := h1
    rw [except_bind_ok] at h1
    obtain ⟨y, hy, h1⟩ := h1
    simp only [Except.ok.injEq] at h1
    have hbs0 := hnone bs (fun b hb => hd b (getObjects_mem hbs b hb))
    have hN : ∀ b ∈ iso'.net.buses, b.genPos g = [] := by
      rw [← h1]
      simp only
      split
      · exact hd
      · intro b hb
        obtain ⟨i, hi, _⟩ := mem_deleteAt.1 (show b ∈ deleteAt N.buses _ from hb)
        exact hd b (List.mem_of_getElem? hi)
    have hzero : ∀ {l : List TpGen}, isolatedGens N g bs = .ok l → l = [] := by
      intro l hl
      unfold isolatedGens at hl
      rw [hbs0] at hl
      unfold getObjects at hl
      rw [List.mapM_nil] at hl
      cases hl
      rfl
    constructor
    · rw [← h1]
      cases g with
      | conv => exact hzero hc
      | res => exact hzero hr
      | hydro => exact hzero hy
    · intro I hI
      unfold findIslands at h2
      split at h2
      · cases h2
      · rw [except_bind_ok] at h2
        obtain ⟨es', _, h2⟩ := h2
        rw [mapM_ok_iff] at h2
        obtain ⟨i, hi, rfl⟩ := List.mem_iff_getElem.1 hI
        have hi2 : i < (components iso'.net.buses.length es').length := by rw [h2.length_eq]; exact hi
        have h3 := (List.forall₂_iff_get.1 h2).2 i hi2 hi
        simp only [List.get_eq_getElem] at h3
        unfold islandOf at h3
        simp only [except_bind_ok] at h3
        obtain ⟨bs', hbs', c', hc', r', hr', y', hy', l', _, t', _, h3⟩ := h3
        simp only [Except.ok.injEq] at h3
        have hbs0' := hnone bs' (fun b hb => hN b (getObjects_mem hbs' b hb))
        have hzero' : ∀ {l : List TpGen}, islandGens iso'.net bs' g = .ok l → l = [] := by
          intro l hl
          unfold islandGens at hl
          rw [hbs0'] at hl
          unfold getObjects at hl
          rw [List.eraseDups_nil, List.mapM_nil] at hl
          cases hl
          rfl
        rw [← h3]
        have hgens : ∀ n : TpNet, n.gens g = [] → (updateAll n).gens g = [] := by
          intro n hn
          have : (updateAll n).gens g = (n.gens g).map _ := rfl
          rw [this, hn]
          rfl
        apply hgens
        cases g with
        | conv => exact hzero' hc'
        | res => exact hzero' hr'
        | hydro => exact hzero' hy'

/-- C134: deleting series elements of one type removes exactly these; the other elements, the buses and the generators keep their data, and all tables still fit: every bus
names exactly the remaining elements that end at it -/
theorem C134_delete_elements (net : TpNet) (h : TpOk net) (s : Series) (pos : List Nat) :
    TpOk (deleteSeries s net pos) ∧ (∀ (l : TpLine), l ∈ (deleteSeries s net pos).series s ↔ ∃ i : Nat, (net.series s)[i]? = some l ∧ i ∉ pos) ∧
    (∀ t, t ≠ s → (deleteSeries s net pos).series t = net.series t) ∧ (deleteSeries s net pos).buses.map busData = net.buses.map busData ∧
    (∀ g, (deleteSeries s net pos).gens g = net.gens g) ∧
    (∀ (e : Nat) (l : TpLine), ((deleteSeries s net pos).series s)[e]? = some l → ∀ b ∈ (deleteSeries s net pos).buses, e ∈ b.serPos s ↔ b.number ∈ l.buses) := by
  refine ⟨deleteSeries_ok h s pos, ?_, ?_, ?_, fun _ => rfl, (deleteSeries_ok h s pos).listed s⟩
  · intro l
    have : (deleteSeries s net pos).series s = deleteAt (net.series s) pos := if_pos rfl
    rw [this]
    exact mem_deleteAt
  · intro t ht
    exact if_neg ht
  · simp only [deleteSeries, updSerPos, List.map_map]
    rfl

/-! ## examples -/

/-- a test for the conditions on networks -/
def tpCheck (net : TpNet) : Bool :=
  netCheck net &&
  [Series.line, Series.trafo].all (fun s => decide ((net.series s).map (·.number)).Nodup && net.buses.all (fun b => decide (b.serNo s).Nodup &&
    (net.series s).all (fun l => decide (l.number ∈ b.serNo s ↔ b.number ∈ l.buses))))

theorem tpOk_of_check (net : TpNet) (h : tpCheck net = true) : TpOk net := by
  unfold tpCheck at h
  rw [Bool.and_eq_true, List.all_eq_true] at h
  obtain ⟨h1, h2⟩ := h
  have h2 : ∀ s : Series, _ := fun s => h2 s (by cases s <;> simp)
  simp only [Bool.and_eq_true, List.all_eq_true, decide_eq_true_eq] at h2
  have h3 := netOk_of_check net h1
  refine ⟨h3.numbers, fun s => (h2 s).1, h3.ends, fun s b hb => ((h2 s).2 b hb).1, fun s l hl b hb => ((h2 s).2 b hb).2 l hl, ?_, h3.range⟩
  intro s e l hl b hb
  obtain ⟨x, hx, rfl⟩ := List.mem_iff_getElem.1 hb
  rw [ends_mem h3.numbers (h3.ends s l (List.mem_of_getElem? hl)) (List.getElem?_eq_getElem hx)]
  exact h3.listed s e l hl x _ (List.getElem?_eq_getElem hx)

/-- five buses: 10 and 20 joined by a line, 30 and 40 by a transformer, a line from 20 to 30 out of service, bus 50 alone; generators at 20, 40 and 50 -/
def exIslNet : TpNet where
  buses := [exTpBus 10 132 5 [1] [0] [] [] [] [], exTpBus 20 132 7 [1, 2] [0, 1] [] [] [20] [0], exTpBus 30 132 0 [2] [1] [7] [0] [] [],
    exTpBus 40 11 3 [] [] [7] [0] [40] [1], exTpBus 50 11 2 [] [] [] [] [50] [2]]
  series := fun s => match s with
    | .line => [⟨1, [20, 10], [0, 1], 1, exPar 4⟩, ⟨2, [20, 30], [1, 2], 0, exPar 0⟩]
    | .trafo => [⟨7, [30, 40], [2, 3], 1, exPar 2⟩]
  gens := fun g => match g with
    | .conv => [⟨20, 1, 100⟩, ⟨40, 3, 50⟩, ⟨50, 4, 10⟩]
    | _ => []

theorem exIslNet_ok : TpOk exIslNet := tpOk_of_check _ (by decide +kernel)

theorem exIslNet_gens : GenListed exIslNet := by
  intro g
  cases g <;> decide +kernel

/-- the conditions of C131 are met, and with these components the program finds two islands and one isolated bus -/
theorem C131_witness : TpOk exIslNet ∧ GenListed exIslNet ∧ (∃ s, ∃ l ∈ exIslNet.series s, l.status ≠ 0) ∧
    (∀ n es, (∀ e ∈ es, e.1 < n ∧ e.2 < n) → CompOk n es (refComponents n es)) ∧
    ∃ iso isl, islandsIsolations (fun _ _ => [[0, 1], [2, 3]]) exIslNet = .ok (iso, isl) ∧ iso.nodes.map (·.number) = [50] ∧ (isoGens iso .conv).map (·.bus) = [50] ∧
      isl.map (fun I => I.buses.map (·.number)) = [[10, 20], [30, 40]] ∧ isl.map (fun I => (I.series .line).map (·.number)) = [[1], []] ∧
      isl.map (fun I => (I.series .trafo).map (fun l => (l.number, l.busPos))) = [[], [(7, [0, 1])]] ∧ isl.map (fun I => (I.gens .conv).map (fun x => (x.bus, x.busPos))) = [[(20, 1)], [(40, 1)]] ∧
      isl.map (fun I => I.buses.map (fun b => (b.genNo .conv, b.genPos .conv))) = [[([], []), ([20], [0])], [([], []), ([40], [0])]] := by
  refine ⟨exIslNet_ok, exIslNet_gens, ⟨.line, ⟨1, [20, 10], [0, 1], 1, exPar 4⟩, by simp [exIslNet], by decide⟩, refComponents_ok, ?_⟩
  have : okAnd (islandsIsolations (fun _ _ => [[0, 1], [2, 3]]) exIslNet) (fun r => decide (r.1.nodes.map (·.number) = [50] ∧ (isoGens r.1 .conv).map (·.bus) = [50] ∧
      r.2.map (fun I => I.buses.map (·.number)) = [[10, 20], [30, 40]] ∧ r.2.map (fun I => (I.series .line).map (·.number)) = [[1], []] ∧
      r.2.map (fun I => (I.series .trafo).map (fun l => (l.number, l.busPos))) = [[], [(7, [0, 1])]] ∧
      r.2.map (fun I => (I.gens .conv).map (fun x => (x.bus, x.busPos))) = [[(20, 1)], [(40, 1)]] ∧
      r.2.map (fun I => I.buses.map (fun b => (b.genNo .conv, b.genPos .conv))) = [[([], []), ([20], [0])], [([], []), ([40], [0])]])) = true := by decide +kernel
  obtain ⟨⟨iso, isl⟩, h1, h2⟩ := okAnd_iff.1 this
  exact ⟨iso, isl, h1, of_decide_eq_true h2⟩

/-- C132: the line from bus 20 to bus 10 has the position of bus 10 first; C133: without generator 0 the generator at bus 40 is in no island -/
theorem C133_witness : (exIslNet.series .line)[0]?.map (fun l => (l.buses, l.busPos)) = some ([20, 10], [0, 1]) ∧
    ((updateAll exIslNet).series .line)[0]?.map (fun l => (l.buses, l.busPos)) = some ([20, 10], [0, 1]) ∧
    ((deleteGens .conv exIslNet [0]).gens .conv).map (·.bus) = [40, 50] ∧
    ∃ iso isl, islandsIsolations (fun _ _ => [[0, 1], [2, 3]]) (deleteGens .conv exIslNet [0]) = .ok (iso, isl) ∧ iso.nodes.map (·.number) = [50] ∧ isl.length = 2 := by
  refine ⟨by decide +kernel, by decide +kernel, by decide +kernel, ?_⟩
  have : okAnd (islandsIsolations (fun _ _ => [[0, 1], [2, 3]]) (deleteGens .conv exIslNet [0])) (fun r => decide (r.1.nodes.map (·.number) = [50] ∧ r.2.length = 2)) = true := by decide +kernel
  obtain ⟨⟨iso, isl⟩, h1, h2⟩ := okAnd_iff.1 this
  exact ⟨iso, isl, h1, of_decide_eq_true h2⟩

/-- C134: the network of C131 without its first line -/
theorem C134_witness : TpOk exIslNet ∧ ((deleteSeries .line exIslNet [0]).series .line).map (·.number) = [2] ∧
    (deleteSeries .line exIslNet [0]).buses.map (fun b => b.serPos .line) = [[], [0], [0], [], []] := by
  refine ⟨exIslNet_ok, by decide +kernel, by decide +kernel⟩

/-- C130: a network whose only elements are out of service -/
example : (exIslNet.series .line)[1]?.map (·.status) = some 0 ∧
    ∀ s, ∀ l ∈ ({ exIslNet with series := fun s => match s with
      | .line => [⟨2, [20, 30], [1, 2], 0, exPar 0⟩]
      | .trafo => [] } : TpNet).series s, l.status = 0 := by
  refine ⟨by decide +kernel, ?_⟩
  intro s l hl
  cases s with
  | line =>
    simp only [List.mem_cons, List.not_mem_nil, or_false] at hl
    subst hl
    rfl
  | trafo => simp at hl

end Pyensys
