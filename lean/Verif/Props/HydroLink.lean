import Verif.Model.HydroLink
import Verif.Props.HydroMore
import Verif.Props.Coupled

/-!
C145–C147: the links between the hydrology engine and the electricity network.

The specification: the power of hydropower unit `x` is its generation times the base power (`unitPower`), a unit turns a flow of 1 m³/s into `unitRate u` MW and a pump uses
`pumpRate` MW for it.
-/

namespace Pyensys

/-- MW of hydropower unit `x` (after the `conv` conventional generators) in instance `xh` and period `xt` -/
def unitPower (n : HlNet) (w : HlVars) (xh xt x : Nat) : Rat := w.gen (xh * n.noGen + (n.conv + x)) xt * n.base

/-- MW of pump `x`: the variables of the pumps of an instance follow one that is always zero -/
def pumpPower (c : HlConf) (n : HlNet) (w : HlVars) (xh xt x : Nat) : Rat := w.pump (xh * (c.noPump + 1) + 1 + x) xt * n.base

/-- MW per m³/s of a unit: head (m) times efficiency times 9.81, in thousands -/
def unitRate (u : HyUnit) : Rat := u.head * u.efficiency * (981 / 100) / 1000

/-- MW per m³/s at a head and efficiency -/
def rateOf (head eff : Rat) : Rat := head * eff * (981 / 100) / 1000

/-! ## loops -/

theorem foldlM_pure {α β : Type} (f : β → α → Except PyErr β) (g : β → α → β) (Q : α → Prop) (h : ∀ b a b', f b a = .ok b' → b' = g b a ∧ Q a) :
    ∀ (l : List α) (b r : β), l.foldlM f b = .ok r → r = l.foldl g b ∧ ∀ a ∈ l, Q a := by
  intro l
  induction l with
  | nil =>
    intro b r hr
    cases hr
    exact ⟨rfl, by simp⟩
  | cons a l ih =>
    intro b r hr
    rw [List.foldlM_cons, except_bind_ok] at hr
    obtain ⟨b', h1, h2⟩ := hr
    obtain ⟨e, q⟩ := h b a b' h1
    obtain ⟨i1, i2⟩ := ih b' r h2
    refine ⟨by rw [List.foldl_cons, ← e]; exact i1, ?_⟩
    intro x hx
    rcases List.mem_cons.1 hx with rfl | hx
    · exact q
    · exact i2 x hx

/-- write values at positions, one after the other -/
def setAll {α β : Type} (idx : α → Option Nat) (val : α → β) (t : List β) (xs : List α) : List β :=
  xs.foldl (fun t x => match idx x with | some i => t.set i (val x) | none => t) t

theorem setAll_cons {α β : Type} (idx : α → Option Nat) (val : α → β) (t : List β) (x : α) (xs : List α) :
    setAll idx val t (x :: xs) = setAll idx val (match idx x with | some i => t.set i (val x) | none => t) xs := rfl

theorem setAll_get {α β : Type} (idx : α → Option Nat) (val : α → β) (k : Nat) : ∀ (xs : List α) (t : List β),
    (setAll idx val t xs)[k]? = (t[k]?).map (fun a => match (xs.filter (fun x => decide (idx x = some k))).getLast? with | some x => val x | none => a) := by
  intro xs
  induction xs with
  | nil =>
    intro t
    simp [setAll]
  | cons x xs ih =>
    intro t
    rw [setAll_cons, ih]
    cases hx : idx x with
    | none =>
      rw [List.filter_cons_of_neg (by simp [hx])]
    | some i =>
      simp only
      rw [List.getElem?_set]
      by_cases hik : i = k
      · subst hik
        rw [List.filter_cons_of_pos (by simp [hx]), List.getLast?_cons, if_pos rfl]
        by_cases hl : i < t.length
        · rw [if_pos hl, List.getElem?_eq_getElem hl]
          simp only [Option.map_some]
          cases (xs.filter (fun x => decide (idx x = some i))).getLast? <;> rfl
        · rw [if_neg hl, List.getElem?_eq_none (by omega)]
          rfl
      · rw [if_neg hik, List.filter_cons_of_neg (by simp [hx, hik])]

theorem setAll_length {α β : Type} (idx : α → Option Nat) (val : α → β) : ∀ (xs : List α) (t : List β), (setAll idx val t xs).length = t.length := by
  intro xs
  induction xs with
  | nil => intro t; rfl
  | cons x xs ih =>
    intro t
    rw [setAll_cons, ih]
    cases idx x <;> simp

/-- a position that no element of the list writes -/
theorem filter_none {α : Type} (xs : List α) (p : α → Bool) (h : ∀ x ∈ xs, p x = false) : (xs.filter p).getLast? = none := by
  rw [List.getLast?_eq_none_iff, List.filter_eq_nil_iff]
  intro x hx
  rw [h x hx]
  simp

theorem filter_unique {α : Type} (xs : List α) (p : α → Bool) (x : α) (hx : x ∈ xs) (hp : p x = true) (hu : ∀ y ∈ xs, p y = true → y = x) : (xs.filter p).getLast? = some x := by
  cases h : (xs.filter p).getLast? with
  | none =>
    rw [List.getLast?_eq_none_iff] at h
    have := List.mem_filter.2 ⟨hx, hp⟩
    rw [h] at this
    simp at this
  | some y =>
    have := List.mem_of_getLast? h
    rw [List.mem_filter] at this
    rw [hu y this.1 this.2]

/-! ## output of every node -/

theorem nodeSeqOut_spec {outs : List Nat} {n : Nat} {seq : List Nat} (hpos : ∀ x ∈ outs, 0 < x) (hnd : outs.Nodup) (h : nodeSeqOut outs n = .ok seq) :
    seq.length = n ∧ ∀ node, 0 < node → node ≤ n → ∃ s, seq[node - 1]? = some s ∧ (∀ k, s = k + 1 ↔ outs[k]? = some node) := by
  unfold nodeSeqOut at h
  obtain ⟨e, _⟩ := foldlM_pure _ (fun t (p : Nat × Nat) => match (some (nodeIdx p.1 n) : Option Nat) with | some i => t.set i (p.2 + 1) | none => t) (fun _ => True) (by
    intro t p t' ht
    rw [npSet_iff] at ht
    exact ⟨ht.2, trivial⟩) _ _ _ h
  have e' : seq = setAll (fun p : Nat × Nat => some (nodeIdx p.1 n)) (fun p => p.2 + 1) (List.replicate n 0) outs.zipIdx := e
  refine ⟨by rw [e', setAll_length, List.length_replicate], ?_⟩
  intro node h0 hn
  have hg := setAll_get (fun p : Nat × Nat => some (nodeIdx p.1 n)) (fun p => p.2 + 1) (node - 1) outs.zipIdx (List.replicate n 0)
  rw [← e', List.getElem?_replicate, if_pos (by omega), Option.map_some] at hg
  have hidx : ∀ p ∈ outs.zipIdx, ((some (nodeIdx p.1 n) : Option Nat) = some (node - 1)) ↔ p.1 = node := by
    intro p hp
    have hp' := List.mk_mem_zipIdx_iff_getElem?.1 (show (p.1, p.2) ∈ outs.zipIdx from hp)
    have := hpos p.1 (List.mem_of_getElem? hp')
    unfold nodeIdx
    rw [if_neg (by omega), Option.some.injEq]
    omega
  by_cases hmem : ∃ k : Nat, outs[k]? = some node
  · obtain ⟨k, hk⟩ := hmem
    have hlast := filter_unique outs.zipIdx (fun p => decide ((some (nodeIdx p.1 n) : Option Nat) = some (node - 1))) (node, k) (List.mk_mem_zipIdx_iff_getElem?.2 hk)
      (by rw [decide_eq_true_eq, hidx _ (List.mk_mem_zipIdx_iff_getElem?.2 hk)]) (by
        intro p hp hpp
        rw [decide_eq_true_eq, hidx _ hp] at hpp
        have hp' := List.mk_mem_zipIdx_iff_getElem?.1 (show (p.1, p.2) ∈ outs.zipIdx from hp)
        rw [hpp] at hp'
        have := (List.getElem?_inj (List.getElem?_eq_some_iff.1 hk).1 hnd).1 (hk.trans hp'.symm)
        rw [Prod.ext_iff]
        exact ⟨hpp, this.symm⟩)
    rw [hlast] at hg
    refine ⟨_, hg, ?_⟩
    intro k'
    simp only
    constructor
    · intro hkk
      have : k = k' := by omega
      rw [← this]
      exact hk
    · intro hk'
      have := (List.getElem?_inj (List.getElem?_eq_some_iff.1 hk).1 hnd).1 (hk.trans hk'.symm)
      omega
  · have hlast := filter_none outs.zipIdx (fun p => decide ((some (nodeIdx p.1 n) : Option Nat) = some (node - 1))) (by
        intro p hp
        rw [decide_eq_false_iff_not, hidx _ hp]
        intro hpp
        have hp' := List.mk_mem_zipIdx_iff_getElem?.1 (show (p.1, p.2) ∈ outs.zipIdx from hp)
        exact hmem ⟨p.2, hpp ▸ hp'⟩)
    rw [hlast] at hg
    refine ⟨_, hg, ?_⟩
    intro k'
    simp only
    constructor
    · intro hkk
      omega
    · intro hk'
      exact absurd ⟨k', hk'⟩ hmem

/-! ## what the lists say -/

/-- the value of `NodeSeqOut` at a position -/
def seqAt (seq : List Nat) (node : Nat) : Nat := (seq[nodeIdx node seq.length]?).getD 0

/-- the node of a unit -/
def nodeOf (m : HyModel) (x : Nat) : Nat := ((m.conf.units[x]?).map (·.node)).getD 0

theorem downFold {m : HyModel} : ∀ (xs l r : List Nat), xs.foldlM (downStep m) l = .ok r →
    r = l ++ xs.filter (fun x => decide (0 < ((m.net.outTab[nodeIdx (nodeOf m x) m.net.outTab.length]?).getD (0, 0)).1)) ∧
    ∀ x ∈ xs, (∃ u, m.conf.units[x]? = some u) ∧ nodeIdx (nodeOf m x) m.net.outTab.length < m.net.outTab.length := by
  intro xs
  induction xs with
  | nil =>
    intro l r h
    cases h
    simp
  | cons x xs ih =>
    intro l r h
    rw [List.foldlM_cons, except_bind_ok] at h
    obtain ⟨l', h1, h2⟩ := h
    unfold downStep at h1
    rw [except_bind_ok] at h1
    obtain ⟨u, u1, h1⟩ := h1
    rw [except_bind_ok] at h1
    obtain ⟨c, c1, h1⟩ := h1
    rw [npGet_iff] at u1 c1
    have hnode : nodeOf m x = u.node := by simp [nodeOf, u1]
    obtain ⟨i1, i2⟩ := ih l' r h2
    refine ⟨?_, ?_⟩
    · rw [i1]
      split at h1
      · rename_i hc
        cases h1
        rw [List.filter_cons_of_pos (by rw [hnode, c1]; simpa using hc), List.append_assoc]
        rfl
      · rename_i hc
        cases h1
        rw [List.filter_cons_of_neg (by rw [hnode, c1]; simpa using hc)]
    · intro y hy
      rcases List.mem_cons.1 hy with rfl | hy
      · exact ⟨⟨u, u1⟩, by rw [hnode]; exact (List.getElem?_eq_some_iff.1 c1).1⟩
      · exact i2 y hy

/-- the parts of a successful `hlLinks` -/
structure HlParts (c : HlConf) (m : HyModel) (l : HlLinks) (seq : List Nat) : Prop where
  seqOk : nodeSeqOut m.outs m.nodes = .ok seq
  hin : l.hin = setAll (fun x => if (m.conf.pumpTo[x]?).getD 0 = 0 then none else (pumpInput m.ins c.vectors ((m.conf.pumpTo[x]?).getD 0)).toOption) (fun x => (1, x))
    (List.replicate m.ins.length (0, 0)) (List.range c.noPump)
  hinOk : ∀ x < c.noPump, ∃ node, m.conf.pumpTo[x]? = some node ∧ (node ≠ 0 → ∃ i, pumpInput m.ins c.vectors node = .ok i)
  down : l.down = (List.range c.noHydro).filter (fun x => decide (0 < ((m.net.outTab[nodeIdx (nodeOf m x) m.net.outTab.length]?).getD (0, 0)).1))
  units : ∀ x < c.noHydro, (∃ u, m.conf.units[x]? = some u) ∧ nodeIdx (nodeOf m x) m.net.outTab.length < m.net.outTab.length
  out : l.out = setAll (fun x => some (nodeIdx (seqAt seq (nodeOf m x)) m.outs.length)) (fun _ => (0, 0))
    (setAll (fun x => if seqAt seq (nodeOf m x) = 0 then none else some (seqAt seq (nodeOf m x) - 1)) (fun x => (1, x)) (List.replicate m.outs.length (0, 0)) (List.range c.noHydro)) l.down
  clear : ∀ x ∈ l.down, nodeIdx (seqAt seq (nodeOf m x)) m.outs.length < m.outs.length
  pumpOut : l.pumpOut = setAll (fun x => if seqAt seq ((m.conf.pumpFrom[x]?).getD 0) = 0 then none else some (seqAt seq ((m.conf.pumpFrom[x]?).getD 0) - 1)) (fun x => (1, x))
    (List.replicate m.outs.length (0, 0)) (List.range c.noPump)
  pumpFrom : ∀ x < c.noPump, ∃ node, m.conf.pumpFrom[x]? = some node ∧ nodeIdx node seq.length < seq.length

theorem hlLinks_parts {c : HlConf} {m : HyModel} {l : HlLinks} (h : hlLinks c m = .ok l) : ∃ seq, HlParts c m l seq := by
  unfold hlLinks at h
  rw [except_bind_ok] at h
  obtain ⟨seq, h1, h⟩ := h
  rw [except_bind_ok] at h
  obtain ⟨hin, h2, h⟩ := h
  rw [except_bind_ok] at h
  obtain ⟨down, h3, h⟩ := h
  rw [except_bind_ok] at h
  obtain ⟨out, h4, h⟩ := h
  rw [except_bind_ok] at h
  obtain ⟨out', h5, h⟩ := h
  rw [except_bind_ok] at h
  obtain ⟨po, h6, h⟩ := h
  cases h
  obtain ⟨d1, d2⟩ := downFold _ _ _ h3
  -- pump inputs
  obtain ⟨i1, i2⟩ := foldlM_pure _ (fun (t : List (Nat × Nat)) (x : Nat) =>
      match (if (m.conf.pumpTo[x]?).getD 0 = 0 then none else (pumpInput m.ins c.vectors ((m.conf.pumpTo[x]?).getD 0)).toOption : Option Nat) with
      | some i => t.set i (1, x) | none => t)
    (fun x => ∃ node, m.conf.pumpTo[x]? = some node ∧ (node ≠ 0 → ∃ i, pumpInput m.ins c.vectors node = .ok i)) (by
      intro t x t' ht
      unfold hinStep at ht
      rw [except_bind_ok] at ht
      obtain ⟨node, n1, ht⟩ := ht
      rw [npGet_iff] at n1
      simp only [n1, Option.getD_some]
      split at ht
      · rename_i hne
        rw [except_bind_ok] at ht
        obtain ⟨i, e1, ht⟩ := ht
        rw [npSet_iff] at ht
        rw [if_neg hne, e1]
        exact ⟨ht.2, node, rfl, fun _ => ⟨i, e1⟩⟩
      · rename_i hne
        push Not at hne
        cases ht
        rw [if_pos hne]
        exact ⟨rfl, node, rfl, fun h => absurd hne h⟩) _ _ _ h2
  -- outputs of units
  have o1 : out.1 = setAll (fun x => if seqAt seq (nodeOf m x) = 0 then none else some (seqAt seq (nodeOf m x) - 1)) (fun x => (1, x)) (List.replicate m.outs.length (0, 0))
      (List.range c.noHydro) := by
    have hgen : ∀ (xs : List Nat) (st r : List (Nat × Nat) × Nat), xs.foldlM (hydOutStep m seq) st = .ok r →
        r.1 = setAll (fun x => if seqAt seq (nodeOf m x) = 0 then none else some (seqAt seq (nodeOf m x) - 1)) (fun x => (1, x)) st.1 xs := by
      intro xs
      induction xs with
      | nil =>
        intro st r hr
        cases hr
        rfl
      | cons x xs ih =>
        intro st r hr
        rw [List.foldlM_cons, except_bind_ok] at hr
        obtain ⟨st', e1, e2⟩ := hr
        unfold hydOutStep at e1
        rw [except_bind_ok] at e1
        obtain ⟨u, u1, e1⟩ := e1
        rw [except_bind_ok] at e1
        obtain ⟨s, s1, e1⟩ := e1
        rw [npGet_iff] at u1 s1
        have hs : seqAt seq (nodeOf m x) = s := by simp [nodeOf, u1, seqAt, s1]
        rw [setAll_cons, hs, ih _ _ e2]
        split at e1
        · rename_i hne
          rw [except_bind_ok] at e1
          obtain ⟨t, t1, e1⟩ := e1
          rw [npSet_iff] at t1
          rw [if_neg hne]
          split at e1
          · cases e1
            rw [t1.2]
          · cases e1
        · rename_i hne
          push Not at hne
          cases e1
          rw [if_pos hne]
    exact hgen _ _ _ h4
  have o2 : out' = setAll (fun x => some (nodeIdx (seqAt seq (nodeOf m x)) m.outs.length)) (fun _ => (0, 0)) out.1 down ∧
      ∀ x ∈ down, nodeIdx (seqAt seq (nodeOf m x)) m.outs.length < m.outs.length := by
    have hgen : ∀ (xs : List Nat) (t r : List (Nat × Nat)), t.length = m.outs.length → xs.foldlM (clearStep m seq) t = .ok r →
        r = setAll (fun x => some (nodeIdx (seqAt seq (nodeOf m x)) m.outs.length)) (fun _ => (0, 0)) t xs ∧
        ∀ x ∈ xs, nodeIdx (seqAt seq (nodeOf m x)) m.outs.length < m.outs.length := by
      intro xs
      induction xs with
      | nil =>
        intro t r _ hr
        cases hr
        exact ⟨rfl, by simp⟩
      | cons x xs ih =>
        intro t r hlen hr
        rw [List.foldlM_cons, except_bind_ok] at hr
        obtain ⟨t', e1, e2⟩ := hr
        unfold clearStep at e1
        rw [except_bind_ok] at e1
        obtain ⟨u, u1, e1⟩ := e1
        rw [except_bind_ok] at e1
        obtain ⟨s, s1, e1⟩ := e1
        rw [npGet_iff] at u1 s1
        have hs : seqAt seq (nodeOf m x) = s := by simp [nodeOf, u1, seqAt, s1]
        rw [npSet_iff, hlen] at e1
        obtain ⟨j1, j2⟩ := ih t' r (by rw [e1.2, List.length_set, hlen]) e2
        refine ⟨by rw [setAll_cons, hs, j1, e1.2], ?_⟩
        intro y hy
        rcases List.mem_cons.1 hy with rfl | hy
        · rw [hs]
          exact e1.1
        · exact j2 y hy
    exact hgen _ _ _ (by rw [o1, setAll_length, List.length_replicate]) h5
  obtain ⟨p1, p2⟩ := foldlM_pure _ (fun (t : List (Nat × Nat)) (x : Nat) =>
      match (if seqAt seq ((m.conf.pumpFrom[x]?).getD 0) = 0 then none else some (seqAt seq ((m.conf.pumpFrom[x]?).getD 0) - 1) : Option Nat) with
      | some i => t.set i (1, x) | none => t)
    (fun x => ∃ node, m.conf.pumpFrom[x]? = some node ∧ nodeIdx node seq.length < seq.length) (by
      intro t x t' ht
      unfold pumpOutStep at ht
      rw [except_bind_ok] at ht
      obtain ⟨node, n1, ht⟩ := ht
      rw [except_bind_ok] at ht
      obtain ⟨s, s1, ht⟩ := ht
      rw [npGet_iff] at n1 s1
      simp only [n1, Option.getD_some]
      have hs : seqAt seq node = s := by simp [seqAt, s1]
      rw [hs]
      split at ht
      · rename_i hne
        rw [npSet_iff] at ht
        rw [if_neg hne]
        exact ⟨ht.2, node, rfl, (List.getElem?_eq_some_iff.1 s1).1⟩
      · rename_i hne
        push Not at hne
        cases ht
        rw [if_pos hne]
        exact ⟨rfl, node, rfl, (List.getElem?_eq_some_iff.1 s1).1⟩) _ _ _ h6
  refine ⟨seq, h1, i1, fun x hx => i2 x (List.mem_range.2 hx), ?_, fun x hx => d2 x (List.mem_range.2 hx), ?_, o2.2, p1, fun x hx => p2 x (List.mem_range.2 hx)⟩
  · rw [d1]
    rfl
  · rw [o2.1, o1]

/-! ## C145: hydropower needs water -/

/-- a coupled model as `initialise` makes it, for users who number nodes from 1 -/
structure HlSetup (c : HlConf) (conf : HyConf) (m : HyModel) (l : HlLinks) : Prop where
  init : hyInitialise conf = .ok m
  user : HyUser conf
  links : hlLinks c m = .ok l
  unitNodes : ∀ u ∈ conf.units, 0 < u.node
  pumpNodes : ∀ x ∈ conf.pumpFrom, 0 < x

theorem HlSetup.row {c : HlConf} {conf : HyConf} {m : HyModel} {l : HlLinks} (hs : HlSetup c conf m l) {x : Nat} {u : HyUnit} (hx : x < c.noHydro)
    (hu : conf.units[x]? = some u) : nodeOf m x = u.node ∧ 0 < u.node ∧ u.node ≤ m.nodes ∧
      rowRivers m.net.n2b1 ((m.net.outTab[nodeIdx u.node m.net.outTab.length]?).getD (0, 0)) = riversFrom m.rivers u.node ∧
      (x ∈ l.down ↔ riversFrom m.rivers u.node ≠ []) := by
  have init := hyInitialise_init hs.init
  obtain ⟨seq, hp⟩ := hlLinks_parts hs.links
  have hpos := hs.unitNodes u (List.mem_of_getElem? hu)
  have hu' : m.conf.units[x]? = some u := by rw [init.conf]; exact hu
  have hnode : nodeOf m x = u.node := by simp [nodeOf, hu']
  obtain ⟨net, h1, h2, _, _⟩ := C136_network_partial m.rivers m.nodes (init.nodesIn hs.user) (init.ends hs.user)
  rw [init.net, Except.ok.injEq] at h1
  subst h1
  have hlt := (hp.units x hx).2
  rw [hnode, h2] at hlt
  have hidx : nodeIdx u.node m.nodes = u.node - 1 := by unfold nodeIdx; rw [if_neg (by omega)]
  rw [hidx] at hlt
  have hrow := (init.rowsOf hs.user (u.node - 1) hlt).1
  rw [Nat.sub_add_cancel hpos] at hrow
  refine ⟨hnode, hpos, by omega, ?_, ?_⟩
  · rw [h2, hidx]
    exact hrow
  · rw [hp.down, List.mem_filter, hnode, h2, hidx, ← hrow, decide_eq_true_eq, List.mem_range]
    unfold rowRivers
    constructor
    · rintro ⟨_, h⟩ e
      rw [List.map_eq_nil_iff, List.range_eq_nil] at e
      omega
    · intro h
      refine ⟨hx, ?_⟩
      rcases Nat.eq_zero_or_pos ((m.net.outTab[u.node - 1]?).getD (0, 0)).1 with e | e
      · rw [e] at h
        exact absurd rfl h
      · exact e

theorem HlSetup.effHydro_eq {c : HlConf} {conf : HyConf} {m : HyModel} {l : HlLinks} (hs : HlSetup c conf m l) {x : Nat} {u : HyUnit} (hu : conf.units[x]? = some u) :
    effHydro m x = unitRate u := by
  have init := hyInitialise_init hs.init
  unfold effHydro
  rw [init.conf, hu]
  rfl

/-- **C145**: a hydropower unit at a node from which rivers leave produces, in every instance and period, at most what the flow in these rivers gives at its head and
efficiency. -/
theorem C145_downstream_partial (c : HlConf) (conf : HyConf) (m : HyModel) (l : HlLinks) (hs : HlSetup c conf m l) (n : HlNet) (v : HyVars) (w : HlVars)
    (hf : HlFeasible c m l n v w) (x : Nat) (u : HyUnit) (hx : x < c.noHydro) (hu : conf.units[x]? = some u) (hr : riversFrom m.rivers u.node ≠ [])
    (heff : 0 < unitRate u) (xh xt : Nat) (hh : xh < conf.number) (ht : xt < conf.noTime) :
    unitPower n w xh xt x ≤ unitRate u * ((riversFrom m.rivers u.node).map (fun r => v.up (m.rivers.length * xh + r) xt)).sum := by
  have init := hyInitialise_init hs.init
  obtain ⟨_, _, _, hrow, hdown⟩ := hs.row hx hu
  have h := hf.out1 (by omega) xh (by rw [init.conf]; exact hh) x (hdown.2 hr) u (by rw [init.conf]; exact hu) xt (by rw [init.conf]; exact ht)
  rw [hrow] at h
  unfold inFromHM at h
  rw [hs.effHydro_eq hu, div_le_iff₀ heff] at h
  unfold unitPower
  rw [mul_comm (unitRate u)]
  exact h

/-- the output of every unit in the list, before the rows of units with rivers downstream are cleared -/
theorem HlSetup.seq {c : HlConf} {conf : HyConf} {m : HyModel} {l : HlLinks} (hs : HlSetup c conf m l) {seq : List Nat} (hp : HlParts c m l seq) {node : Nat} (h0 : 0 < node)
    (hn : node ≤ m.nodes) : ∀ k : Nat, seqAt seq node = k + 1 ↔ m.outs[k]? = some node := by
  have init := hyInitialise_init hs.init
  obtain ⟨o1, o2⟩ := init.outsOk hs.user
  obtain ⟨s1, s2⟩ := nodeSeqOut_spec o1 o2 hp.seqOk
  obtain ⟨s, s3, s4⟩ := s2 node h0 hn
  have : seqAt seq node = s := by
    unfold seqAt nodeIdx
    rw [if_neg (by omega), s3]
    rfl
  rw [this]
  exact s4

theorem HlSetup.unit {c : HlConf} {conf : HyConf} {m : HyModel} {l : HlLinks} (hs : HlSetup c conf m l) {x : Nat} (hx : x < c.noHydro) : ∃ u, conf.units[x]? = some u := by
  have init := hyInitialise_init hs.init
  obtain ⟨seq, hp⟩ := hlLinks_parts hs.links
  obtain ⟨u, hu⟩ := (hp.units x hx).1
  exact ⟨u, by rw [init.conf] at hu; exact hu⟩

theorem HlSetup.pumpRow {c : HlConf} {conf : HyConf} {m : HyModel} {l : HlLinks} (hs : HlSetup c conf m l) {k node : Nat} (hk : m.outs[k]? = some node) :
    l.pumpOut[k]? = some (match ((List.range c.noPump).filter (fun p => decide (conf.pumpFrom[p]? = some node))).getLast? with | some p => (1, p) | none => (0, 0)) := by
  have init := hyInitialise_init hs.init
  obtain ⟨seq, hp⟩ := hlLinks_parts hs.links
  have hlt : k < m.outs.length := (List.getElem?_eq_some_iff.1 hk).1
  obtain ⟨o1, o2⟩ := init.outsOk hs.user
  have hlen := (nodeSeqOut_spec o1 o2 hp.seqOk).1
  rw [hp.pumpOut, setAll_get, List.getElem?_replicate, if_pos hlt, Option.map_some]
  have hfil : (List.range c.noPump).filter (fun x => decide ((if seqAt seq ((m.conf.pumpFrom[x]?).getD 0) = 0 then none else
      some (seqAt seq ((m.conf.pumpFrom[x]?).getD 0) - 1) : Option Nat) = some k)) = (List.range c.noPump).filter (fun p => decide (conf.pumpFrom[p]? = some node)) := by
    apply List.filter_congr
    intro x hx
    rw [List.mem_range] at hx
    obtain ⟨a, a1, a2⟩ := hp.pumpFrom x hx
    rw [a1, Option.getD_some, decide_eq_decide, ← init.conf, a1, Option.some.injEq]
    have apos : 0 < a := hs.pumpNodes a (by rw [init.conf] at a1; exact List.mem_of_getElem? a1)
    unfold nodeIdx at a2
    rw [if_neg (by omega), hlen] at a2
    have hseq := hs.seq hp (node := a) apos (by omega) k
    constructor
    · intro h
      split at h
      · cases h
      · rename_i hne
        rw [Option.some.injEq] at h
        have := hseq.1 (by omega)
        rw [hk, Option.some.injEq] at this
        exact this.symm
    · intro h
      have : seqAt seq a = k + 1 := hseq.2 (by rw [hk, h])
      rw [this]
      simp
  rw [hfil]
  cases ((List.range c.noPump).filter (fun p => decide (conf.pumpFrom[p]? = some node))).getLast? <;> rfl

/-- the row of an output in `LLHydOut`: cleared if a unit with rivers downstream clears it, else the last unit of the node -/
theorem HlSetup.outRow {c : HlConf} {conf : HyConf} {m : HyModel} {l : HlLinks} (hs : HlSetup c conf m l) {seq : List Nat} (hp : HlParts c m l seq) {k node : Nat}
    (hk : m.outs[k]? = some node) :
    ((∃ y ∈ l.down, nodeIdx (seqAt seq (nodeOf m y)) m.outs.length = k) → l.out[k]? = some (0, 0)) ∧
    ((¬ ∃ y ∈ l.down, nodeIdx (seqAt seq (nodeOf m y)) m.outs.length = k) →
      l.out[k]? = some (match ((List.range c.noHydro).filter (fun x => decide (nodeOf m x = node))).getLast? with | some x => (1, x) | none => (0, 0))) := by
  have hlt : k < m.outs.length := (List.getElem?_eq_some_iff.1 hk).1
  have hg := setAll_get (fun x => some (nodeIdx (seqAt seq (nodeOf m x)) m.outs.length)) (fun _ => ((0, 0) : Nat × Nat)) k l.down
    (setAll (fun x => if seqAt seq (nodeOf m x) = 0 then none else some (seqAt seq (nodeOf m x) - 1)) (fun x => (1, x)) (List.replicate m.outs.length (0, 0)) (List.range c.noHydro))
  rw [← hp.out, setAll_get, List.getElem?_replicate, if_pos hlt] at hg
  simp only [Option.map_some] at hg
  constructor
  · rintro ⟨y, y1, y2⟩
    rw [hg]
    cases h : (l.down.filter (fun x => decide (some (nodeIdx (seqAt seq (nodeOf m x)) m.outs.length) = some k))).getLast? with
    | some z => rfl
    | none =>
      rw [List.getLast?_eq_none_iff, List.filter_eq_nil_iff] at h
      exact absurd (by simpa using y2) (h y y1)
  · intro hno
    rw [hg, filter_none l.down (fun x => decide (some (nodeIdx (seqAt seq (nodeOf m x)) m.outs.length) = some k)) (by
      intro x hx
      rw [decide_eq_false_iff_not, Option.some.injEq]
      exact fun e => hno ⟨x, hx, e⟩)]
    simp only
    have hfil : (List.range c.noHydro).filter (fun x => decide ((if seqAt seq (nodeOf m x) = 0 then none else some (seqAt seq (nodeOf m x) - 1) : Option Nat) = some k)) =
        (List.range c.noHydro).filter (fun x => decide (nodeOf m x = node)) := by
      apply List.filter_congr
      intro x hx
      rw [List.mem_range] at hx
      obtain ⟨u, hu⟩ := hs.unit hx
      obtain ⟨a1, a2, a3, _, _⟩ := hs.row hx hu
      have hseq := hs.seq hp (node := nodeOf m x) (by omega) (by omega) k
      rw [decide_eq_decide]
      constructor
      · intro h
        split at h
        · cases h
        · rename_i hne
          rw [Option.some.injEq] at h
          have : m.outs[k]? = some (nodeOf m x) := hseq.1 (by omega)
          rw [hk, Option.some.injEq] at this
          exact this.symm
      · intro h
        have : seqAt seq (nodeOf m x) = k + 1 := hseq.2 (by rw [hk, h])
        rw [this]
        simp
    rw [hfil]
    cases ((List.range c.noHydro).filter (fun x => decide (nodeOf m x = node))).getLast? <;> rfl

/-- **C145**: a hydropower unit at an output of the water network, where no river leaves and no other unit is, takes at most the water that leaves the network there, together with
the pump at the same node; provided that it is not at the last output, or that every unit at whose node rivers leave is at an output too (see `C145_last_violated`). -/
theorem C145_output_partial (c : HlConf) (conf : HyConf) (m : HyModel) (l : HlLinks) (hs : HlSetup c conf m l) (n : HlNet) (v : HyVars) (w : HlVars)
    (hf : HlFeasible c m l n v w) (x : Nat) (u : HyUnit) (hx : x < c.noHydro) (hu : conf.units[x]? = some u) (hr : riversFrom m.rivers u.node = [])
    (k : Nat) (hk : m.outs[k]? = some u.node) (hone : ∀ y u', y < c.noHydro → conf.units[y]? = some u' → u'.node = u.node → y = x)
    (hlast : k + 1 < m.outs.length ∨ ∀ y u', y < c.noHydro → conf.units[y]? = some u' → riversFrom m.rivers u'.node ≠ [] → u'.node ∈ m.outs)
    (hpump : ∀ p q : Nat, conf.pumpFrom[p]? = some u.node → conf.pumpFrom[q]? = some u.node → p = q)
    (xh xt : Nat) (hh : xh < conf.number) (ht : xt < conf.noTime) :
    unitPower n w xh xt x / unitRate u +
        (((List.range c.noPump).filter (fun p => decide (conf.pumpFrom[p]? = some u.node))).map
          (fun p => pumpPower c n w xh xt p / rateOf ((c.pumpHead[p]?).getD 0) ((c.pumpEff[p]?).getD 0))).sum ≤ v.out (m.outs.length * xh + k) xt := by
  have init := hyInitialise_init hs.init
  obtain ⟨seq, hp⟩ := hlLinks_parts hs.links
  have hlt : k < m.outs.length := (List.getElem?_eq_some_iff.1 hk).1
  have hpk := hs.pumpRow hk
  obtain ⟨a1, a2, a3, _, adown⟩ := hs.row hx hu
  -- the row of the output
  have hrow : l.out[k]? = some (1, x) := by
    rw [(hs.outRow hp hk).2, filter_unique (List.range c.noHydro) (fun y => decide (nodeOf m y = u.node)) x (List.mem_range.2 hx) (by simpa using a1)]
    · intro y hy hyn
      rw [List.mem_range] at hy
      rw [decide_eq_true_eq] at hyn
      obtain ⟨u', hu'⟩ := hs.unit hy
      exact hone y u' hy hu' ((hs.row hy hu').1 ▸ hyn)
    · rintro ⟨y, y1, y2⟩
      have hy : y < c.noHydro := by
        rw [hp.down, List.mem_filter, List.mem_range] at y1
        exact y1.1
      obtain ⟨u', hu'⟩ := hs.unit hy
      obtain ⟨b1, b2, b3, _, bdown⟩ := hs.row hy hu'
      have hne := bdown.1 y1
      have hseq := hs.seq hp (node := nodeOf m y) (by omega) (by omega)
      rcases Nat.eq_zero_or_pos (seqAt seq (nodeOf m y)) with e | e
      · rw [e] at y2
        unfold nodeIdx at y2
        rw [if_pos rfl] at y2
        rcases hlast with h | h
        · omega
        · obtain ⟨k', hk'⟩ := List.getElem?_of_mem (h y u' hy hu' hne)
          have := (hseq k').2 (by rw [b1]; exact hk')
          omega
      · unfold nodeIdx at y2
        rw [if_neg (by omega)] at y2
        have h3 := (hseq k).1 (by omega)
        rw [hk, Option.some.injEq] at h3
        have := hone y u' hy hu' (by rw [← b1]; exact h3.symm)
        subst this
        exact absurd (adown.1 y1) (by rw [hr]; simp)
  have h := hf.out2 (by omega) xh (by rw [init.conf]; exact hh) k _ _ hrow hpk xt (by rw [init.conf]; exact ht)
  simp only [List.range_one, List.map_cons, List.map_nil, List.sum_cons, List.sum_nil, add_zero] at h
  unfold inFromHM at h
  rw [hs.effHydro_eq hu, Nat.add_comm k, Nat.mul_comm xh m.outs.length] at h
  refine le_trans (le_of_eq ?_) h
  unfold unitPower
  congr 1
  cases hl : ((List.range c.noPump).filter (fun p => decide (conf.pumpFrom[p]? = some u.node))).getLast? with
  | none =>
    rw [List.getLast?_eq_none_iff] at hl
    rw [hl]
    rfl
  | some p =>
    have hone' : (List.range c.noPump).filter (fun p => decide (conf.pumpFrom[p]? = some u.node)) = [p] := by
      have hnd : ((List.range c.noPump).filter (fun p => decide (conf.pumpFrom[p]? = some u.node))).Nodup := List.nodup_range.filter _
      have hmem : ∀ q ∈ (List.range c.noPump).filter (fun p => decide (conf.pumpFrom[p]? = some u.node)), q = p := by
        intro q hq
        have hp' := List.mem_of_getLast? hl
        rw [List.mem_filter, decide_eq_true_eq] at hq hp'
        exact hpump q p hq.2 hp'.2
      generalize (List.range c.noPump).filter (fun p => decide (conf.pumpFrom[p]? = some u.node)) = L at hl hnd hmem
      match L with
      | [] => simp at hl
      | [a] => rw [hmem a (by simp)]
      | a :: b :: L =>
        have e1 := hmem a (by simp)
        have e2 := hmem b (by simp)
        rw [e1, e2] at hnd
        simp at hnd
    rw [hone']
    simp only [List.range_one, List.map_cons, List.map_nil, List.sum_cons, List.sum_nil, add_zero]
    unfold pumpFlow pumpPower
    rw [show 1 + p + xh * (1 + c.noPump) = xh * (c.noPump + 1) + 1 + p by ring]
    rfl

end Pyensys
