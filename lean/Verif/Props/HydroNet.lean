import Verif.Props.Hydrology

/-!
# Hydrology: the rivers of every node (C136)
-/

namespace Pyensys

/-! ## specification -/

/-- the rivers that leave a node, in the order in which they are given -/
def riversFrom (rs : List River) (node : Nat) : List Nat := (List.range rs.length).filter (fun b => decide ((rs[b]?).map (·.frm) = some node))

/-- the rivers that enter a node -/
def riversTo (rs : List River) (node : Nat) : List Nat := (List.range rs.length).filter (fun b => decide ((rs[b]?).map (·.dest) = some node))

/-- the two nodes of a river, without its direction -/
def riverEnds (r : River) : Nat × Nat := (min r.frm r.dest, max r.frm r.dest)

/-- the nodes of all rivers are numbered from 1 to `n` -/
def NodesIn (rs : List River) (n : Nat) : Prop := ∀ r ∈ rs, (0 < r.frm ∧ r.frm ≤ n) ∧ (0 < r.dest ∧ r.dest ≤ n)

/-! ## linked lists -/

/-- the positions of a list follow each other in the array of successors -/
def ChainLinked (next : List Nat) : List Nat → Prop
  | [] => True
  | [p] => next[p]? = some 0
  | p :: q :: l => next[p]? = some q ∧ q ≠ 0 ∧ ChainLinked next (q :: l)

theorem linked_tail {next : List Nat} {p : Nat} {l : List Nat} (h : ChainLinked next (p :: l)) : ChainLinked next l := by
  cases l with
  | nil => trivial
  | cons q l => exact h.2.2

theorem followEnd_linked {next : List Nat} : ∀ (l : List Nat) (p : Nat) (f : Nat), ChainLinked next (p :: l) → l.length < f →
    followEnd next f p = .ok ((p :: l).getLast (by simp)) := by
  intro l
  induction l with
  | nil =>
    intro p f h hf
    cases f with
    | zero => simp at hf
    | succ f =>
      unfold followEnd
      rw [npGet_some h]
      rfl
  | cons q l ih =>
    intro p f h hf
    cases f with
    | zero => simp at hf
    | succ f =>
      unfold followEnd
      rw [npGet_some h.1]
      simp only [bind, Except.bind]
      rw [if_pos h.2.1, ih q f h.2.2 (by simpa using hf)]
      simp

theorem linked_set_other {next : List Nat} {x v : Nat} : ∀ (l : List Nat), x ∉ l → ChainLinked next l → ChainLinked (next.set x v) l := by
  intro l
  induction l with
  | nil => intro _ _; trivial
  | cons p l ih =>
    intro hx h
    have hp : x ≠ p := fun e => hx (by simp [e])
    cases l with
    | nil =>
      simp only [ChainLinked] at h ⊢
      rw [List.getElem?_set_ne hp]
      exact h
    | cons q l =>
      refine ⟨?_, h.2.1, ih (fun e => hx (List.mem_cons_of_mem _ e)) h.2.2⟩
      rw [List.getElem?_set_ne hp]
      exact h.1

theorem linked_append {next : List Nat} {k : Nat} (hk0 : k ≠ 0) (hk : next[k]? = some 0) : ∀ (l : List Nat) (p : Nat), (p :: l).Nodup → k ∉ p :: l →
    ChainLinked next (p :: l) → ChainLinked (next.set ((p :: l).getLast (by simp)) k) (p :: l ++ [k]) := by
  intro l
  induction l with
  | nil =>
    intro p _ hkp h
    have hp : p < next.length := by
      simp only [ChainLinked] at h
      exact (List.getElem?_eq_some_iff.1 h).1
    have hne : p ≠ k := fun e => hkp (by simp [e])
    simp only [List.getLast_singleton, List.cons_append, List.nil_append]
    refine ⟨?_, hk0, ?_⟩
    · rw [List.getElem?_set_self hp]
    · simp only [ChainLinked]
      rw [List.getElem?_set_ne hne]
      exact hk
  | cons q l ih =>
    intro p hnd hkp h
    have hq := ih q (List.nodup_cons.1 hnd).2 (fun e => hkp (List.mem_cons_of_mem _ e)) h.2.2
    have hlast : (p :: q :: l).getLast (by simp) = (q :: l).getLast (by simp) := by simp
    rw [hlast]
    refine ⟨?_, h.2.1, hq⟩
    rw [List.getElem?_set_ne]
    · exact h.1
    · intro e
      exact (List.nodup_cons.1 hnd).1 (e ▸ List.getLast_mem _)

/-! ## data points -/

/-- the table and row of a data point: even points are the first nodes of rivers, odd points the last ones -/
def ptKey (rs : List River) (rows p : Nat) : Option (Bool × Nat) :=
  (rs[p / 2]?).map (fun r => if p % 2 = 0 then (true, nodeIdx r.frm rows) else (false, nodeIdx r.dest rows))

/-- the first `k` data points of a row -/
def chainOf (rs : List River) (rows k : Nat) (κ : Bool × Nat) : List Nat := (List.range k).filter (fun p => decide (ptKey rs rows p = some κ))

theorem mem_chainOf {rs : List River} {rows k : Nat} {κ : Bool × Nat} {p : Nat} : p ∈ chainOf rs rows k κ ↔ p < k ∧ ptKey rs rows p = some κ := by
  simp [chainOf]

theorem chainOf_nodup (rs : List River) (rows k : Nat) (κ : Bool × Nat) : (chainOf rs rows k κ).Nodup := List.nodup_range.filter _

theorem chainOf_succ (rs : List River) (rows k : Nat) (κ : Bool × Nat) :
    chainOf rs rows (k + 1) κ = if ptKey rs rows k = some κ then chainOf rs rows k κ ++ [k] else chainOf rs rows k κ := by
  unfold chainOf
  rw [List.range_succ, List.filter_append]
  split
  · rename_i h
    simp [h]
  · rename_i h
    simp [h]

theorem chainOf_length_le (rs : List River) (rows k : Nat) (κ : Bool × Nat) : (chainOf rs rows k κ).length ≤ k := by
  unfold chainOf
  exact le_trans (List.length_filter_le _ _) (by simp)

/-- the state after `k` data points -/
structure LinksInv (rs : List River) (rows L : Nat) (st : HyLinks) (k : Nat) : Prop where
  x0 : st.x0 = k
  auxLen : st.aux.length = L
  nextLen : st.next.length = L
  tabLen : ∀ o, (st.tabs o).length = rows
  aux : ∀ p < k, st.aux[p]? = some (p / 2)
  zero : ∀ p, k ≤ p → p < L → st.next[p]? = some 0
  tab : ∀ o i, i < rows → (st.tabs o)[i]? = some ((chainOf rs rows k (o, i)).length, (chainOf rs rows k (o, i)).headD 0)
  linked : ∀ κ, ChainLinked st.next (chainOf rs rows k κ)

theorem linkEnd_spec {rs : List River} {rows L : Nat} {st : HyLinks} {k : Nat} (inv : LinksInv rs rows L st k) (hk : k ≤ L) (κ : Bool × Nat) :
    ∃ next', linkEnd st.next st.x0 ((chainOf rs rows k κ).length, (chainOf rs rows k κ).headD 0) =
        .ok (next', ((chainOf rs rows k κ ++ [k]).length, (chainOf rs rows k κ ++ [k]).headD 0)) ∧ next'.length = L ∧
      (k < L → ChainLinked next' (chainOf rs rows k κ ++ [k]) ∧ (∀ κ', κ' ≠ κ → ChainLinked next' (chainOf rs rows k κ')) ∧
        ∀ p, k + 1 ≤ p → p < L → next'[p]? = some 0) := by
  unfold linkEnd
  cases hc : chainOf rs rows k κ with
  | nil =>
    refine ⟨st.next, ?_, inv.nextLen, ?_⟩
    · simp [inv.x0]
    · intro hkL
      refine ⟨?_, fun κ' _ => inv.linked κ', fun p hp hpL => inv.zero p (by omega) hpL⟩
      exact inv.zero k (le_refl _) hkL
  | cons p l =>
    have hnd : (p :: l).Nodup := hc ▸ chainOf_nodup rs rows k κ
    have hlk : ChainLinked st.next (p :: l) := hc ▸ inv.linked κ
    have hlen : (p :: l).length ≤ k := hc ▸ chainOf_length_le rs rows k κ
    have hmem : ∀ q ∈ p :: l, q < k := fun q hq => (mem_chainOf.1 (hc ▸ hq)).1
    have hlast : (p :: l).getLast (by simp) < k := hmem _ (List.getLast_mem _)
    rw [if_neg (by simp)]
    simp only [List.headD_cons]
    rw [followEnd_linked l p _ hlk (by rw [inv.nextLen]; simp at hlen; omega)]
    simp only [bind, Except.bind]
    rw [npSet_ok _ (by rw [inv.nextLen]; omega)]
    refine ⟨st.next.set ((p :: l).getLast (by simp)) k, ?_, ?_, ?_⟩
    · simp [inv.x0]
    · rw [List.length_set, inv.nextLen]
    · intro hkL
      refine ⟨?_, ?_, ?_⟩
      · apply linked_append (by simp at hlen; omega) (inv.zero k (le_refl _) hkL) l p hnd _ hlk
        intro hin
        have := hmem k hin
        omega
      · intro κ' hne
        apply linked_set_other _ _ (inv.linked κ')
        intro hin
        have h1 := (mem_chainOf.1 hin).2
        have h2 : ptKey rs rows ((p :: l).getLast (by simp)) = some κ := (mem_chainOf.1 (by rw [hc]; exact List.getLast_mem _)).2
        rw [h1, Option.some.injEq] at h2
        exact hne h2
      · intro q hq hqL
        rw [List.getElem?_set_ne (by omega)]
        exact inv.zero q (by omega) hqL

theorem addPoint_step {rs : List River} {rows L : Nat} {st : HyLinks} {k : Nat} (inv : LinksInv rs rows L st k) (hk : k ≤ L) (o : Bool) (i : Nat)
    (hi : i < rows) (hkey : ptKey rs rows k = some (o, i)) :
    (k < L → ∃ st', addPoint st o i (k / 2) = .ok st' ∧ LinksInv rs rows L st' (k + 1)) ∧ (¬ k < L → addPoint st o i (k / 2) = .error .index) := by
  obtain ⟨next', h1, h2, h3⟩ := linkEnd_spec inv hk (o, i)
  have hget := npGet_some (inv.tab o i hi)
  unfold addPoint
  rw [hget]
  simp only [bind, Except.bind]
  rw [h1]
  constructor
  · intro hkL
    obtain ⟨a1, a2, a3⟩ := h3 hkL
    simp only
    rw [npSet_ok _ (by rw [inv.auxLen, inv.x0]; exact hkL)]
    refine ⟨_, rfl, ⟨by simp [inv.x0], by simp [inv.auxLen], h2, ?_, ?_, a3, ?_, ?_⟩⟩
    · intro o'
      simp only
      split
      · rw [List.length_set, inv.tabLen]
      · exact inv.tabLen o'
    · intro p hp
      simp only [inv.x0]
      by_cases hpk : p = k
      · subst hpk
        rw [List.getElem?_set_self (by rw [inv.auxLen]; exact hkL)]
      · rw [List.getElem?_set_ne (by omega)]
        exact inv.aux p (by omega)
    · intro o' i' hi'
      simp only
      rw [chainOf_succ, hkey]
      by_cases ho : o' = o
      · subst ho
        rw [if_pos rfl]
        by_cases hii : i' = i
        · subst hii
          rw [List.getElem?_set_self (by rw [inv.tabLen]; exact hi), if_pos rfl]
        · rw [List.getElem?_set_ne (fun e => hii e.symm), if_neg, inv.tab o' i' hi']
          intro e
          simp only [Option.some.injEq, Prod.mk.injEq, true_and] at e
          exact hii e.symm
      · rw [if_neg ho, if_neg, inv.tab o' i' hi']
        intro e
        simp only [Option.some.injEq, Prod.mk.injEq] at e
        exact ho e.1.symm
    · intro κ'
      rw [chainOf_succ, hkey]
      by_cases hκ : κ' = (o, i)
      · subst hκ
        rw [if_pos rfl]
        exact a1
      · rw [if_neg (fun e => hκ (Option.some.inj e).symm)]
        exact a2 κ' hκ
  · intro hkL
    simp only
    have : npSet st.aux st.x0 (k / 2) = .error .index := by
      unfold npSet
      rw [if_neg (by rw [inv.auxLen, inv.x0]; exact hkL)]
    rw [this]

theorem nodeIdx_lt {n rows : Nat} (h : n ≤ rows) (hr : 0 < rows) : nodeIdx n rows < rows := by
  unfold nodeIdx
  split <;> omega

/-- the first pass over the rivers from position `b` on -/
theorem addRivers_spec (rs : List River) (rows L : Nat) (hrows : ∀ r ∈ rs, r.frm ≤ rows ∧ r.dest ≤ rows ∧ 0 < rows) (hL : L % 2 = 0) :
    ∀ (l : List River) (b : Nat) (st : HyLinks), rs.drop b = l → b + l.length = rs.length → LinksInv rs rows L st (2 * b) → 2 * b ≤ L →
      (2 * rs.length ≤ L → ∃ st', (l.zipIdx b).foldlM (addRiver rows) st = .ok st' ∧ LinksInv rs rows L st' (2 * rs.length)) ∧
      (L < 2 * rs.length → (l.zipIdx b).foldlM (addRiver rows) st = .error .index) := by
  intro l
  induction l with
  | nil =>
    intro b st hd hlen inv hb
    simp only [List.length_nil, Nat.add_zero] at hlen
    subst hlen
    exact ⟨fun _ => ⟨st, rfl, inv⟩, fun h => by omega⟩
  | cons r l ih =>
    intro b st hd hlen inv hb
    simp only [List.length_cons] at hlen
    have hr : rs[b]? = some r := by
      have : (rs.drop b)[0]? = some r := by rw [hd]; rfl
      simpa using this
    have hmem : r ∈ rs := List.mem_of_getElem? hr
    obtain ⟨g1, g2, g3⟩ := hrows r hmem
    have hk1 : ptKey rs rows (2 * b) = some (true, nodeIdx r.frm rows) := by
      unfold ptKey
      rw [Nat.mul_div_cancel_left _ (by omega), hr]
      simp
    have hk2 : ptKey rs rows (2 * b + 1) = some (false, nodeIdx r.dest rows) := by
      unfold ptKey
      have e : (2 * b + 1) / 2 = b := by omega
      rw [e, hr]
      simp [Nat.add_mod]
    have e1 : 2 * b / 2 = b := by omega
    have e2 : (2 * b + 1) / 2 = b := by omega
    obtain ⟨s1, s2⟩ := addPoint_step inv hb true _ (nodeIdx_lt g1 g3) hk1
    rw [e1] at s1 s2
    by_cases hlt : 2 * b < L
    · obtain ⟨st1, t1, inv1⟩ := s1 hlt
      obtain ⟨u1, _⟩ := addPoint_step inv1 (by omega) false _ (nodeIdx_lt g2 g3) hk2
      rw [e2] at u1
      obtain ⟨st2, v1, inv2⟩ := u1 (by omega)
      have hstep : addRiver rows st (r, b) = .ok st2 := by
        unfold addRiver
        rw [t1]
        exact v1
      have hd' : rs.drop (b + 1) = l := by
        rw [← List.drop_drop, hd]
        rfl
      obtain ⟨w1, w2⟩ := ih (b + 1) st2 hd' (by omega) inv2 (by omega)
      rw [List.zipIdx_cons, List.foldlM_cons, hstep]
      exact ⟨w1, w2⟩
    · refine ⟨fun h => by omega, fun _ => ?_⟩
      have hstep : addRiver rows st (r, b) = .error .index := by
        unfold addRiver
        rw [s2 hlt]
        rfl
      rw [List.zipIdx_cons, List.foldlM_cons, hstep]
      rfl

theorem hyLinks_spec (rs : List River) (rows : Nat) (hrows : ∀ r ∈ rs, r.frm ≤ rows ∧ r.dest ≤ rows ∧ 0 < rows) :
    (rs.length ≤ edgeCount rs → ∃ st, hyLinks rs rows = .ok st ∧ LinksInv rs rows (edgeCount rs * 2) st (2 * rs.length)) ∧
    (edgeCount rs < rs.length → hyLinks rs rows = .error .index) := by
  have h := addRivers_spec rs rows (edgeCount rs * 2) hrows (by omega) rs 0
    ⟨List.replicate (edgeCount rs * 2) 0, List.replicate (edgeCount rs * 2) 0, fun _ => List.replicate rows (0, 0), 0⟩ rfl (by simp) (by
      refine ⟨rfl, by simp, by simp, by simp, by simp, ?_, ?_, ?_⟩
      · intro p _ hp
        simp [hp]
      · intro o i hi
        simp [chainOf, hi]
      · intro κ
        simp [chainOf, ChainLinked]) (by omega)
  unfold hyLinks
  exact ⟨fun hl => h.1 (by omega), fun hl => h.2 (by omega)⟩

/-! ## the second pass -/

theorem copyList_linked {aux next : List Nat} : ∀ (l : List Nat) (p : Nat) (w : List Nat) (z : Nat), ChainLinked next (p :: l) → (∀ q ∈ p :: l, aux[q]? = some (q / 2)) →
    l.length + 1 ≤ z → copyList aux next (l.length + 1) p (w ++ List.replicate z 0, w.length) =
      .ok (w ++ (p :: l).map (· / 2) ++ List.replicate (z - (l.length + 1)) 0, w.length + (l.length + 1)) := by
  intro l
  induction l with
  | nil =>
    intro p w z h ha hz
    obtain ⟨z, rfl⟩ : ∃ y, z = y + 1 := ⟨z - 1, by omega⟩
    unfold copyList
    rw [npGet_some (ha p (by simp))]
    simp only [bind, Except.bind]
    rw [npSet_ok _ (by simp)]
    simp only
    rw [npGet_some h]
    simp [copyList, List.replicate_succ]
  | cons q l ih =>
    intro p w z h ha hz
    obtain ⟨z, rfl⟩ : ∃ y, z = y + 1 := ⟨z - 1, by omega⟩
    have hih := ih q (w ++ [p / 2]) z h.2.2 (fun x hx => ha x (List.mem_cons_of_mem _ hx)) (by simp at hz; omega)
    rw [List.length_cons]
    unfold copyList
    rw [npGet_some (ha p (by simp))]
    simp only [bind, Except.bind]
    rw [npSet_ok _ (by simp)]
    simp only
    rw [npGet_some h.1]
    simp only
    have e : (w ++ List.replicate (z + 1) 0).set w.length (p / 2) = (w ++ [p / 2]) ++ List.replicate z 0 := by
      rw [List.set_append_right _ _ (le_refl _)]
      simp [List.replicate_succ]
    rw [e]
    have e2 : w.length + 1 = (w ++ [p / 2]).length := by simp
    rw [e2, hih]
    simp
    omega

theorem rowRivers_at (w l t : List Nat) : rowRivers (w ++ l ++ t) (l.length, w.length) = l := by
  unfold rowRivers
  apply List.ext_getElem
  · simp
  · intro i h1 h2
    simp only [List.getElem_map, List.getElem_range]
    rw [List.append_assoc, List.getElem?_append_right (by omega), List.getElem?_append_left (by omega)]
    simp [List.getElem?_eq_getElem h2]

theorem rowRivers_zero (n2b1 : List Nat) (x : Nat) : rowRivers n2b1 (0, x) = [] := rfl

theorem seqNodes_spec {aux next : List Nat} : ∀ (chains : List (List Nat)) (st : HySeq) (w : List Nat) (z : Nat),
    (∀ c ∈ chains, ChainLinked next c ∧ ∀ q ∈ c, aux[q]? = some (q / 2)) → st.n2b1 = w ++ List.replicate z 0 → st.x0 = w.length → st.xacu = w.length →
    chains.flatten.length ≤ z →
    ∃ rows : List (Nat × Nat), (chains.map (fun c => (c.length, c.headD 0))).foldlM (seqNode aux next) st =
        .ok ⟨w ++ chains.flatten.map (· / 2) ++ List.replicate (z - chains.flatten.length) 0, w.length + chains.flatten.length, w.length + chains.flatten.length, st.done ++ rows⟩ ∧
      ∀ t, List.Forall₂ (fun row (c : List Nat) => rowRivers (w ++ chains.flatten.map (· / 2) ++ t) row = c.map (· / 2)) rows chains := by
  intro chains
  induction chains with
  | nil =>
    intro st w z _ h1 h2 h3 _
    refine ⟨[], ?_, fun t => by simp⟩
    obtain ⟨a, b, c, d⟩ := st
    simp only at h1 h2 h3
    subst h1 h2 h3
    simp [pure, Except.pure]
  | cons c chains ih =>
    intro st w z hc h1 h2 h3 hz
    have hz' : c.length + chains.flatten.length ≤ z := by simpa using hz
    cases c with
    | nil =>
      obtain ⟨rows, r1, r2⟩ := ih ⟨st.n2b1, st.x0, st.xacu, st.done ++ [(0, 0)]⟩ w z (fun c hc' => hc c (List.mem_cons_of_mem _ hc')) h1 h2 h3 (by simpa using hz')
      refine ⟨(0, 0) :: rows, ?_, fun t => ?_⟩
      · rw [List.map_cons, List.foldlM_cons]
        have : seqNode aux next st (([] : List Nat).length, ([] : List Nat).headD 0) = .ok ⟨st.n2b1, st.x0, st.xacu, st.done ++ [(0, 0)]⟩ := by
          simp [seqNode]
        rw [this]
        simp only [bind, Except.bind]
        rw [r1]
        simp
      · refine List.Forall₂.cons ?_ (r2 t)
        rfl
    | cons p l =>
      obtain ⟨hl, ha⟩ := hc (p :: l) List.mem_cons_self
      simp only [List.length_cons] at hz'
      have hcopy := copyList_linked l p w z hl ha (by omega)
      obtain ⟨rows, r1, r2⟩ := ih ⟨w ++ (p :: l).map (· / 2) ++ List.replicate (z - (l.length + 1)) 0, w.length + (l.length + 1), w.length + (l.length + 1), st.done ++ [(l.length + 1, w.length)]⟩
        (w ++ (p :: l).map (· / 2)) (z - (l.length + 1)) (fun c hc' => hc c (List.mem_cons_of_mem _ hc')) rfl (by simp) (by simp) (by omega)
      refine ⟨(l.length + 1, w.length) :: rows, ?_, fun t => ?_⟩
      · rw [List.map_cons, List.foldlM_cons]
        have : seqNode aux next st ((p :: l).length, (p :: l).headD 0) =
            .ok ⟨w ++ (p :: l).map (· / 2) ++ List.replicate (z - (l.length + 1)) 0, w.length + (l.length + 1), w.length + (l.length + 1), st.done ++ [(l.length + 1, w.length)]⟩ := by
          unfold seqNode
          rw [if_neg (by simp)]
          simp only [List.length_cons, List.headD_cons]
          rw [h1, h2, h3, hcopy]
          rfl
        rw [this]
        simp only [bind, Except.bind]
        rw [r1]
        have e1 : z - (l.length + 1) - chains.flatten.length = z - ((p :: l) :: chains).flatten.length := by
          simp only [List.flatten_cons, List.length_append, List.length_cons]
          omega
        have e2 : (w ++ (p :: l).map (· / 2)).length + chains.flatten.length = w.length + ((p :: l) :: chains).flatten.length := by
          simp only [List.flatten_cons, List.length_append, List.length_cons, List.length_map]
          omega
        rw [e1, e2]
        simp
      · refine List.Forall₂.cons ?_ ?_
        · have := rowRivers_at w ((p :: l).map (· / 2)) (chains.flatten.map (· / 2) ++ t)
          simpa using this
        · have := r2 t
          simpa using this

/-! ## the network -/

theorem flatten_length_sum {α : Type} (l : List (List α)) : l.flatten.length = (l.map List.length).sum := by
  rw [List.length_flatten]

/-- all data points of valid rows are counted once -/
theorem chains_total (rs : List River) (rows : Nat) : ∀ k : Nat, (∀ p < k, ∃ o i, i < rows ∧ ptKey rs rows p = some (o, i)) →
    (((List.range rows).map (fun i => (chainOf rs rows k (true, i)).length)).sum + ((List.range rows).map (fun i => (chainOf rs rows k (false, i)).length)).sum) = k := by
  intro k
  induction k with
  | zero => intro _; simp [chainOf]
  | succ k ih =>
    intro h
    have hk := ih (fun p hp => h p (by omega))
    obtain ⟨o, i, hi, hkey⟩ := h k (by omega)
    have hone : ∀ o' : Bool, ((List.range rows).map (fun j => (chainOf rs rows (k + 1) (o', j)).length)).sum =
        ((List.range rows).map (fun j => (chainOf rs rows k (o', j)).length)).sum + if o' = o then 1 else 0 := by
      intro o'
      have hpt : ∀ j, (chainOf rs rows (k + 1) (o', j)).length = (chainOf rs rows k (o', j)).length + if o' = o ∧ j = i then 1 else 0 := by
        intro j
        rw [chainOf_succ, hkey]
        by_cases hc : o' = o ∧ j = i
        · obtain ⟨rfl, rfl⟩ := hc
          simp
        · rw [if_neg, if_neg hc, Nat.add_zero]
          intro e
          simp only [Option.some.injEq, Prod.mk.injEq] at e
          exact hc ⟨e.1.symm, e.2.symm⟩
      have hsplit : ∀ l : List Nat, l.Nodup → (l.map (fun j => (chainOf rs rows (k + 1) (o', j)).length)).sum =
          (l.map (fun j => (chainOf rs rows k (o', j)).length)).sum + if o' = o ∧ i ∈ l then 1 else 0 := by
        intro l
        induction l with
        | nil => intro _; simp
        | cons a l ihl =>
          intro hnd
          rw [List.nodup_cons] at hnd
          rw [List.map_cons, List.sum_cons, List.map_cons, List.sum_cons, ihl hnd.2, hpt a]
          by_cases ho : o' = o
          · by_cases ha : a = i
            · subst ha
              simp [ho, hnd.1]
              omega
            · simp [ho, ha, Ne.symm ha]
              omega
          · simp [ho]
      rw [hsplit _ List.nodup_range]
      congr 1
      simp [hi]
    rw [hone true, hone false]
    cases o
    · simp
      omega
    · simp
      omega

theorem chainOf_half (rs : List River) (rows i : Nat) : ∀ N, N ≤ rs.length →
    (chainOf rs rows (2 * N) (true, i)).map (· / 2) = (List.range N).filter (fun b => decide ((rs[b]?).map (fun r => nodeIdx r.frm rows) = some i)) ∧
    (chainOf rs rows (2 * N) (false, i)).map (· / 2) = (List.range N).filter (fun b => decide ((rs[b]?).map (fun r => nodeIdx r.dest rows) = some i)) := by
  intro N
  induction N with
  | zero => intro _; simp [chainOf]
  | succ N ih =>
    intro hN
    obtain ⟨h1, h2⟩ := ih (by omega)
    obtain ⟨r, hr⟩ : ∃ r, rs[N]? = some r := ⟨rs[N], List.getElem?_eq_getElem (by omega)⟩
    have k1 : ptKey rs rows (2 * N) = some (true, nodeIdx r.frm rows) := by
      unfold ptKey
      rw [Nat.mul_div_cancel_left _ (by omega), hr]
      simp
    have k2 : ptKey rs rows (2 * N + 1) = some (false, nodeIdx r.dest rows) := by
      unfold ptKey
      have e : (2 * N + 1) / 2 = N := by omega
      rw [e, hr]
      simp [Nat.add_mod]
    have e1 : 2 * N / 2 = N := by omega
    have e2 : (2 * N + 1) / 2 = N := by omega
    have e : 2 * (N + 1) = 2 * N + 1 + 1 := by omega
    rw [e, chainOf_succ, chainOf_succ, chainOf_succ, chainOf_succ, k1, k2, List.range_succ, List.filter_append, List.filter_append, ← h1, ← h2]
    constructor
    · by_cases hi : nodeIdx r.frm rows = i
      · simp [hi, hr, e1]
      · simp [hi, hr]
    · by_cases hi : nodeIdx r.dest rows = i
      · simp [hi, hr, e2]
      · simp [hi, hr]

theorem hyNet_spec (rs : List River) (n : Nat) (hin : NodesIn rs n) (hedge : rs.length ≤ edgeCount rs) (hle : edgeCount rs ≤ rs.length) :
    ∃ net, hyNet rs n = .ok net ∧ net.outTab.length = n ∧ net.inTab.length = n ∧
      ∀ i < n, ∃ ro ri, net.outTab[i]? = some ro ∧ net.inTab[i]? = some ri ∧ rowRivers net.n2b1 ro = riversFrom rs (i + 1) ∧ rowRivers net.n2b1 ri = riversTo rs (i + 1) := by
  have hrows : hyRows rs n = n := by
    unfold hyRows
    rw [if_neg]
    rintro ⟨r, hr, h | h⟩
    · have := (hin r hr).1.1
      omega
    · have := (hin r hr).2.1
      omega
  obtain ⟨st, h1, inv⟩ := (hyLinks_spec rs n (fun r hr => ⟨(hin r hr).1.2, (hin r hr).2.2, by have := hin r hr; omega⟩)).1 hedge
  have hN : edgeCount rs = rs.length := by omega
  rw [hN] at inv
  -- the tables are the lists of their rows
  have htab : ∀ o, st.tabs o = ((List.range n).map (fun i => chainOf rs n (2 * rs.length) (o, i))).map (fun c => (c.length, c.headD 0)) := by
    intro o
    apply List.ext_getElem?
    intro i
    by_cases hi : i < n
    · rw [inv.tab o i hi]
      simp [hi]
    · rw [List.getElem?_eq_none (by rw [inv.tabLen]; omega), List.getElem?_eq_none (by simp; omega)]
  have hch : ∀ o, ∀ c ∈ (List.range n).map (fun i => chainOf rs n (2 * rs.length) (o, i)), ChainLinked st.next c ∧ ∀ q ∈ c, st.aux[q]? = some (q / 2) := by
    intro o c hc
    obtain ⟨i, _, rfl⟩ := List.mem_map.1 hc
    exact ⟨inv.linked _, fun q hq => inv.aux q (mem_chainOf.1 hq).1⟩
  have hkeys : ∀ p < 2 * rs.length, ∃ o i, i < n ∧ ptKey rs n p = some (o, i) := by
    intro p hp
    obtain ⟨r, hr⟩ : ∃ r, rs[p / 2]? = some r := ⟨rs[p / 2], List.getElem?_eq_getElem (by omega)⟩
    have hm := hin r (List.mem_of_getElem? hr)
    unfold ptKey
    rw [hr, Option.map_some]
    by_cases hp2 : p % 2 = 0
    · exact ⟨true, nodeIdx r.frm n, nodeIdx_lt (by omega) (by omega), by rw [if_pos hp2]⟩
    · exact ⟨false, nodeIdx r.dest n, nodeIdx_lt (by omega) (by omega), by rw [if_neg hp2]⟩
  have htot := chains_total rs n (2 * rs.length) hkeys
  have hlenO : ∀ o, ((List.range n).map (fun i => chainOf rs n (2 * rs.length) (o, i))).flatten.length = ((List.range n).map (fun i => (chainOf rs n (2 * rs.length) (o, i)).length)).sum := by
    intro o
    rw [List.length_flatten, List.map_map]
    rfl
  obtain ⟨rowsO, o1, o2⟩ := seqNodes_spec (aux := st.aux) (next := st.next) ((List.range n).map (fun i => chainOf rs n (2 * rs.length) (true, i)))
    ⟨List.replicate (edgeCount rs * 2) 0, 0, 0, []⟩ [] (edgeCount rs * 2) (hch true) rfl rfl rfl (by rw [hlenO]; omega)
  obtain ⟨rowsI, i1, i2⟩ := seqNodes_spec (aux := st.aux) (next := st.next) ((List.range n).map (fun i => chainOf rs n (2 * rs.length) (false, i)))
    ⟨[] ++ ((List.range n).map (fun i => chainOf rs n (2 * rs.length) (true, i))).flatten.map (· / 2) ++
        List.replicate (edgeCount rs * 2 - ((List.range n).map (fun i => chainOf rs n (2 * rs.length) (true, i))).flatten.length) 0,
      ([] : List Nat).length + ((List.range n).map (fun i => chainOf rs n (2 * rs.length) (true, i))).flatten.length,
      ([] : List Nat).length + ((List.range n).map (fun i => chainOf rs n (2 * rs.length) (true, i))).flatten.length, []⟩
    (((List.range n).map (fun i => chainOf rs n (2 * rs.length) (true, i))).flatten.map (· / 2))
    (edgeCount rs * 2 - ((List.range n).map (fun i => chainOf rs n (2 * rs.length) (true, i))).flatten.length) (hch false) (by simp only [List.nil_append]) (by simp only [List.length_nil, Nat.zero_add, List.length_map]) (by simp only [List.length_nil, Nat.zero_add, List.length_map])
    (by rw [hlenO, hlenO]; omega)
  refine ⟨⟨((List.range n).map (fun i => chainOf rs n (2 * rs.length) (true, i))).flatten.map (· / 2) ++
        ((List.range n).map (fun i => chainOf rs n (2 * rs.length) (false, i))).flatten.map (· / 2) ++
        List.replicate (edgeCount rs * 2 - ((List.range n).map (fun i => chainOf rs n (2 * rs.length) (true, i))).flatten.length -
          ((List.range n).map (fun i => chainOf rs n (2 * rs.length) (false, i))).flatten.length) 0, rowsO, rowsI⟩, ?_, ?_⟩
  · unfold hyNet
    rw [hrows, h1]
    simp only [bind, Except.bind]
    rw [htab true, o1]
    simp only [bind, Except.bind]
    rw [htab false]
    simp only [bind, Except.bind] at i1 ⊢
    rw [i1]
    simp only [List.nil_append]
  · have fO := o2 (((List.range n).map (fun i => chainOf rs n (2 * rs.length) (false, i))).flatten.map (· / 2) ++
        List.replicate (edgeCount rs * 2 - ((List.range n).map (fun i => chainOf rs n (2 * rs.length) (true, i))).flatten.length -
          ((List.range n).map (fun i => chainOf rs n (2 * rs.length) (false, i))).flatten.length) 0)
    have fI := i2 (List.replicate (edgeCount rs * 2 - ((List.range n).map (fun i => chainOf rs n (2 * rs.length) (true, i))).flatten.length -
          ((List.range n).map (fun i => chainOf rs n (2 * rs.length) (false, i))).flatten.length) 0)
    have lO : rowsO.length = n := by rw [fO.length_eq]; simp
    have lI : rowsI.length = n := by rw [fI.length_eq]; simp
    refine ⟨lO, lI, ?_⟩
    intro i hi
    have hidx : ∀ x : Nat, 0 < x → (nodeIdx x n = i ↔ x = i + 1) := by
      intro x hx
      unfold nodeIdx
      rw [if_neg (by omega)]
      omega
    have hiO : i < rowsO.length := by omega
    have hiI : i < rowsI.length := by omega
    refine ⟨rowsO[i], rowsI[i], List.getElem?_eq_getElem hiO, List.getElem?_eq_getElem hiI, ?_, ?_⟩
    · have := List.Forall₂.get fO (i := i) (by omega) (by simpa using hi)
      simp only [List.get_eq_getElem, List.getElem_map, List.getElem_range] at this
      rw [(chainOf_half rs n i rs.length (le_refl _)).1] at this
      simp only [List.nil_append, ← List.append_assoc] at this
      rw [this]
      unfold riversFrom
      apply List.filter_congr
      intro b hb
      rw [List.mem_range] at hb
      have hr : rs[b]? = some rs[b] := List.getElem?_eq_getElem hb
      rw [hr]
      simp only [Option.map_some, Option.some.injEq, decide_eq_decide]
      exact hidx _ (hin _ (List.getElem_mem hb)).1.1
    · have := List.Forall₂.get fI (i := i) (by omega) (by simpa using hi)
      simp only [List.get_eq_getElem, List.getElem_map, List.getElem_range] at this
      rw [(chainOf_half rs n i rs.length (le_refl _)).2] at this
      rw [this]
      unfold riversTo
      apply List.filter_congr
      intro b hb
      rw [List.mem_range] at hb
      have hr : rs[b]? = some rs[b] := List.getElem?_eq_getElem hb
      rw [hr]
      simp only [Option.map_some, Option.some.injEq, decide_eq_decide]
      exact hidx _ (hin _ (List.getElem_mem hb)).2.1

theorem eraseDups_length {α : Type} [BEq α] [LawfulBEq α] [DecidableEq α] : ∀ (k : Nat) (l : List α), l.length ≤ k →
    l.eraseDups.length ≤ l.length ∧ (l.eraseDups.length = l.length ↔ l.Nodup) := by
  intro k
  induction k with
  | zero =>
    intro l hl
    have : l = [] := List.length_eq_zero_iff.1 (by omega)
    subst this
    simp
  | succ k ih =>
    intro l hl
    cases l with
    | nil => simp
    | cons a l =>
      simp only [List.length_cons] at hl
      have hf := List.length_filter_le (fun b => !b == a) l
      obtain ⟨h1, h2⟩ := ih (l.filter (fun b => !b == a)) (by omega)
      rw [List.eraseDups_cons, List.length_cons, List.length_cons, List.nodup_cons]
      refine ⟨by omega, ?_⟩
      constructor
      · intro h
        have hfl : (l.filter (fun b => !b == a)).length = l.length := by omega
        have hall := List.length_filter_eq_length_iff.1 hfl
        have heq : l.filter (fun b => !b == a) = l := List.filter_eq_self.2 hall
        refine ⟨fun hm => by simpa using hall a hm, ?_⟩
        rw [heq] at h2
        exact h2.1 (by rw [heq] at h; omega)
      · rintro ⟨ha, hnd⟩
        have heq : l.filter (fun b => !b == a) = l := List.filter_eq_self.2 (fun b hb => by
          simp only [Bool.not_eq_true', beq_eq_false_iff_ne]
          rintro rfl
          exact ha hb)
        rw [heq] at h2 ⊢
        rw [h2.2 hnd]

theorem edgeCount_iff (rs : List River) : edgeCount rs ≤ rs.length ∧ (edgeCount rs = rs.length ↔ (rs.map riverEnds).Nodup) := by
  have := eraseDups_length (rs.map riverEnds).length (rs.map riverEnds) (le_refl _)
  simp only [List.length_map] at this
  exact this

/-- **C136**: the rivers of a node.  If the nodes of the rivers are numbered from 1 to the number of nodes and no two rivers join the same two nodes, the network is built
and lists for every node exactly the rivers that leave it and exactly the rivers that enter it, each once and in the order given. -/
theorem C136_network_partial (rs : List River) (n : Nat) (hin : NodesIn rs n) (hdist : (rs.map riverEnds).Nodup) :
    ∃ net, hyNet rs n = .ok net ∧ net.outTab.length = n ∧ net.inTab.length = n ∧
      ∀ i < n, ∃ ro ri, net.outTab[i]? = some ro ∧ net.inTab[i]? = some ri ∧ rowRivers net.n2b1 ro = riversFrom rs (i + 1) ∧ rowRivers net.n2b1 ri = riversTo rs (i + 1) := by
  obtain ⟨h1, h2⟩ := edgeCount_iff rs
  exact hyNet_spec rs n hin (by rw [h2.2 hdist]) h1

/-- **C136 violated**: two rivers between the same nodes (in either direction) make the model fail with an IndexError, whatever the rest of the network is. -/
theorem C136_parallel_violated (rs : List River) (n : Nat) (hin : NodesIn rs n) (hpar : ¬ (rs.map riverEnds).Nodup) : hyNet rs n = .error .index := by
  obtain ⟨h1, h2⟩ := edgeCount_iff rs
  have hrows : hyRows rs n = n := by
    unfold hyRows
    rw [if_neg]
    rintro ⟨r, hr, h | h⟩
    · have := (hin r hr).1.1
      omega
    · have := (hin r hr).2.1
      omega
  have hlt : edgeCount rs < rs.length := by
    rcases Nat.lt_or_ge (edgeCount rs) rs.length with h | h
    · exact h
    · exact absurd (h2.1 (by omega)) hpar
  have := (hyLinks_spec rs n (fun r hr => ⟨(hin r hr).1.2, (hin r hr).2.2, by have := hin r hr; omega⟩)).2 hlt
  unfold hyNet
  rw [hrows, this]
  rfl

end Pyensys
