import Verif.Props.Attest
import Verif.Props.Network
import Verif.Model.Search

/-!
# Properties of the investment options of the ATTEST document (C75-C78)
-/

namespace Pyensys

/-! ## Specification -/

/-- What buying a branch means: cluster `c` asks for a positive size `v` on branch `xb`; `i` is the first
place of `v` in the catalogue; the branch gets the size `oversize` places further at that size's cost per
unit of length. -/
structure Bought (cat costs lengths : List Rat) (oversize : Nat) (c : List Rat) (xb : Nat) (cap cost : Rat) : Prop where
  intro ::
  item : ∃ (v ct len : Rat) (i : Nat), c[xb]? = some v ∧ 0 < v ∧ cat[i]? = some v ∧ (∀ j < i, cat[j]? ≠ some v) ∧
    cat[i + oversize]? = some cap ∧ costs[i + oversize]? = some ct ∧ lengths[xb]? = some len ∧ cost = ct * len

/-- What an option must be for cluster `c` of a document of `n` branches: exactly the branches with a
positive size are listed, in increasing order and 1-based, each with its capacity; the cost is the sum. -/
def IsOption (cat costs lengths : List Rat) (oversize n : Nat) (c : List Rat) (o : AttestOption) : Prop :=
  n ≤ c.length ∧ ∃ items : List (Nat × Rat × Rat),
    (items.map (·.1)).Pairwise (· < ·) ∧
    (∀ xb : Nat, xb ∈ items.map (·.1) ↔ xb < n ∧ ∃ v, c[xb]? = some v ∧ 0 < v) ∧
    (∀ it ∈ items, Bought cat costs lengths oversize c it.1 it.2.1 it.2.2) ∧
    o.elements = items.map (fun it => (it.1 : Int) + 1) ∧
    o.capacity = items.map (fun it => it.2.1) ∧
    o.cost = (items.map (fun it => it.2.2)).sum

theorem pyGet_nat_iff {α : Type} (l : List α) (n : Nat) (a : α) : pyGet l (n : Int) = .ok a ↔ l[n]? = some a := by
  unfold pyGet
  simp only [Int.not_lt.2 (Int.natCast_nonneg n), if_false, Int.toNat_natCast]
  cases l[n]? <;> simp

theorem catalogueIndex_iff (cat : List Rat) (x : Rat) (i : Nat) :
    catalogueIndex cat x = .ok i ↔ cat[i]? = some x ∧ ∀ j < i, cat[j]? ≠ some x := by
  unfold catalogueIndex
  constructor
  · intro h
    split at h
    · rename_i hx
      injection h with h
      subst h
      refine ⟨List.getElem?_idxOf hx, ?_⟩
      intro j hj hc
      have := List.not_of_lt_findIdx (xs := cat) (p := (· == x)) (i := j) hj
      obtain ⟨hj', hc⟩ := List.getElem?_eq_some_iff.1 hc
      simp [hc] at this
    · cases h
  · rintro ⟨h1, h2⟩
    have hx : x ∈ cat := List.mem_of_getElem? h1
    rw [if_pos hx]
    congr 1
    rcases Nat.lt_trichotomy (cat.idxOf x) i with h | h | h
    · exact absurd (List.getElem?_idxOf hx) (h2 _ h)
    · exact h
    · exfalso
      have := List.not_of_lt_findIdx (xs := cat) (p := (· == x)) (i := i) h
      obtain ⟨hj', hc⟩ := List.getElem?_eq_some_iff.1 h1
      simp [hc] at this

theorem except_bind_ok {α β : Type} {x : Except PyErr α} {f : α → Except PyErr β} {b : β} :
    (x >>= f) = .ok b ↔ ∃ a, x = .ok a ∧ f a = .ok b := by
  cases x <;> simp [bind, Except.bind]

theorem optionStep_iff (cat costs lengths : List Rat) (oversize : Nat) (c : List Rat) (o o' : AttestOption) (xb : Nat) :
    optionStep cat costs lengths oversize c o xb = .ok o' ↔
      (∃ v, c[xb]? = some v ∧ ¬ 0 < v ∧ o' = o) ∨
      (∃ cap cost, Bought cat costs lengths oversize c xb cap cost ∧
        o' = { cost := o.cost + cost, elements := o.elements ++ [(xb : Int) + 1], capacity := o.capacity ++ [cap] }) := by
  unfold optionStep
  rw [except_bind_ok]
  constructor
  · rintro ⟨v, hv, h⟩
    rw [pyGet_nat_iff] at hv
    by_cases hp : v > 0
    · right
      rw [if_pos hp] at h
      obtain ⟨i, hi, h⟩ := except_bind_ok.1 h
      obtain ⟨ct, hct, h⟩ := except_bind_ok.1 h
      obtain ⟨len, hlen, h⟩ := except_bind_ok.1 h
      obtain ⟨cap, hcap, h⟩ := except_bind_ok.1 h
      rw [pyGet_nat_iff] at hct hlen hcap
      obtain ⟨h1, h2⟩ := (catalogueIndex_iff _ _ _).1 hi
      injection h with h
      exact ⟨cap, ct * len, ⟨v, ct, len, i, hv, hp, h1, h2, hcap, hct, hlen, rfl⟩, h.symm⟩
    · left
      rw [if_neg hp] at h
      injection h with h
      exact ⟨v, hv, hp, h.symm⟩
  · rintro (⟨v, hv, hp, rfl⟩ | ⟨cap, cost, ⟨v, ct, len, i, hv, hp, h1, h2, hcap, hct, hlen, rfl⟩, rfl⟩)
    · exact ⟨v, (pyGet_nat_iff _ _ _).2 hv, by rw [if_neg hp]; rfl⟩
    · refine ⟨v, (pyGet_nat_iff _ _ _).2 hv, ?_⟩
      rw [if_pos hp]
      refine except_bind_ok.2 ⟨i, (catalogueIndex_iff _ _ _).2 ⟨h1, h2⟩, ?_⟩
      refine except_bind_ok.2 ⟨ct, (pyGet_nat_iff _ _ _).2 hct, ?_⟩
      refine except_bind_ok.2 ⟨len, (pyGet_nat_iff _ _ _).2 hlen, ?_⟩
      exact except_bind_ok.2 ⟨cap, (pyGet_nat_iff _ _ _).2 hcap, rfl⟩

theorem option_iff (cat costs lengths : List Rat) (oversize : Nat) (c : List Rat) (n : Nat) : ∀ (o : AttestOption),
    (List.range n).foldlM (optionStep cat costs lengths oversize c) {} = .ok o ↔
      IsOption cat costs lengths oversize n c o := by
  induction n with
  | zero =>
    intro o
    constructor
    · intro h
      have h : Except.ok ({} : AttestOption) = (Except.ok o : Except PyErr AttestOption) := h
      injection h with h
      subst h
      refine ⟨Nat.zero_le _, [], List.Pairwise.nil, ?_, ?_, rfl, rfl, rfl⟩
      · intro xb; simp
      · simp
    · rintro ⟨_, items, _, hm, _, h1, h2, h3⟩
      have : items = [] := by
        cases items with
        | nil => rfl
        | cons it _ =>
          have := (hm it.1).1 (by simp)
          omega
      subst this
      cases o
      simp only [List.map_nil, List.sum_nil] at h1 h2 h3
      subst h1 h2 h3
      rfl
  | succ n ih =>
    intro o
    rw [List.range_succ, List.foldlM_append, except_bind_ok]
    constructor
    · rintro ⟨o1, ho1, h⟩
      simp only [List.foldlM_cons, List.foldlM_nil] at h
      obtain ⟨o2, h', e⟩ := except_bind_ok.1 h
      have e : Except.ok o2 = (Except.ok o : Except PyErr AttestOption) := e
      injection e with e
      subst e
      replace h := h'
      obtain ⟨hn, items, hp, hm, hb, h1, h2, h3⟩ := (ih o1).1 ho1
      rcases (optionStep_iff _ _ _ _ _ _ _ _).1 h with ⟨v, hv, hv0, rfl⟩ | ⟨cap, cost, hbt, rfl⟩
      · have := (List.getElem?_eq_some_iff.1 hv).1
        refine ⟨by omega, items, hp, ?_, hb, h1, h2, h3⟩
        intro xb
        rw [hm]
        constructor
        · rintro ⟨hx, hx'⟩; exact ⟨by omega, hx'⟩
        · rintro ⟨hx, w, hw, hw0⟩
          refine ⟨?_, w, hw, hw0⟩
          rcases Nat.lt_succ_iff_lt_or_eq.1 hx with h | rfl
          · exact h
          · rw [hv] at hw; injection hw with hw; subst hw; exact absurd hw0 hv0
      · obtain ⟨v, _, _, _, hv, hv0, _⟩ := hbt.item
        have := (List.getElem?_eq_some_iff.1 hv).1
        refine ⟨by omega, items ++ [(n, cap, cost)], ?_, ?_, ?_, ?_, ?_, ?_⟩
        · rw [List.map_append, List.pairwise_append]
          refine ⟨hp, by simp, ?_⟩
          intro a ha b hb'
          simp only [List.map_cons, List.map_nil, List.mem_singleton] at hb'
          subst hb'
          exact ((hm a).1 ha).1
        · intro xb
          rw [List.map_append, List.mem_append, hm]
          simp only [List.map_cons, List.map_nil, List.mem_singleton]
          constructor
          · rintro (⟨hx, hx'⟩ | rfl)
            · exact ⟨by omega, hx'⟩
            · exact ⟨by omega, v, hv, hv0⟩
          · rintro ⟨hx, hx'⟩
            rcases Nat.lt_succ_iff_lt_or_eq.1 hx with h | h
            · exact .inl ⟨h, hx'⟩
            · exact .inr h
        · intro it hit
          rcases List.mem_append.1 hit with h | h
          · exact hb it h
          · rw [List.mem_singleton] at h; subst h; exact hbt
        · simp [h1]
        · simp [h2]
        · simp [h3]
    · rintro ⟨hn, items, hp, hm, hb, h1, h2, h3⟩
      obtain ⟨v, hv⟩ : ∃ v, c[n]? = some v := ⟨c[n], List.getElem?_eq_getElem (by omega)⟩
      by_cases hv0 : 0 < v
      · have hnm : n ∈ items.map (·.1) := (hm n).2 ⟨by omega, v, hv, hv0⟩
        rcases List.eq_nil_or_concat items with rfl | ⟨init, last, rfl⟩
        · cases hnm
        · simp only [List.concat_eq_append] at *
          rw [List.map_append, List.pairwise_append] at hp
          obtain ⟨hp1, _, hp2⟩ := hp
          have hlast : last.1 = n := by
            have hl := ((hm last.1).1 (by simp)).1
            rw [List.map_append, List.mem_append] at hnm
            rcases hnm with h | h
            · have := hp2 n h last.1 (by simp)
              omega
            · simp only [List.map_cons, List.map_nil, List.mem_singleton] at h
              exact h.symm
          refine ⟨⟨(init.map (fun it => it.2.2)).sum, init.map (fun it => (it.1 : Int) + 1), init.map (fun it => it.2.1)⟩, ?_, ?_⟩
          · refine (ih _).2 ⟨by omega, init, hp1, ?_, ?_, rfl, rfl, rfl⟩
            · intro xb
              constructor
              · intro hx
                have := (hm xb).1 (by rw [List.map_append]; exact List.mem_append_left _ hx)
                have h' := hp2 xb hx last.1 (by simp)
                exact ⟨by omega, this.2⟩
              · rintro ⟨hx, hx'⟩
                have := (hm xb).2 ⟨by omega, hx'⟩
                rw [List.map_append, List.mem_append] at this
                rcases this with h | h
                · exact h
                · simp only [List.map_cons, List.map_nil, List.mem_singleton] at h
                  omega
            · intro it hit
              exact hb it (List.mem_append_left _ hit)
          · simp only [List.foldlM_cons, List.foldlM_nil]
            refine except_bind_ok.2 ⟨o, ?_, rfl⟩
            refine (optionStep_iff _ _ _ _ _ _ _ _).2 (.inr ⟨last.2.1, last.2.2, ?_, ?_⟩)
            · have := hb last (by simp)
              rw [hlast] at this
              exact this
            · cases o
              simp only [List.map_append, List.map_cons, List.map_nil, List.sum_append, List.sum_cons, List.sum_nil,
                add_zero, hlast] at h1 h2 h3
              subst h1 h2 h3
              rfl
      · refine ⟨o, (ih o).2 ⟨by omega, items, hp, ?_, hb, h1, h2, h3⟩, ?_⟩
        · intro xb
          rw [hm]
          constructor
          · rintro ⟨hx, w, hw, hw0⟩
            refine ⟨?_, w, hw, hw0⟩
            rcases Nat.lt_succ_iff_lt_or_eq.1 hx with h | rfl
            · exact h
            · rw [hv] at hw; injection hw with hw; subst hw; exact absurd hw0 hv0
          · rintro ⟨hx, hx'⟩; exact ⟨by omega, hx'⟩
        · simp only [List.foldlM_cons, List.foldlM_nil]
          exact except_bind_ok.2 ⟨o, (optionStep_iff _ _ _ _ _ _ _ _).2 (.inl ⟨v, hv, hv0, rfl⟩), rfl⟩

theorem mapM_ok_iff {α β : Type} (f : α → Except PyErr β) (l : List α) : ∀ (r : List β),
    l.mapM f = .ok r ↔ List.Forall₂ (fun a b => f a = .ok b) l r := by
  induction l with
  | nil => intro r; simp [pure, Except.pure, eq_comm]
  | cons a l ih =>
    intro r
    rw [List.mapM_cons, except_bind_ok]
    constructor
    · rintro ⟨b, hb, h⟩
      obtain ⟨bs, hbs, h⟩ := except_bind_ok.1 h
      have h : Except.ok (b :: bs) = (Except.ok r : Except PyErr (List β)) := h
      injection h with h
      subst h
      exact .cons hb ((ih bs).1 hbs)
    · intro h
      cases h with
      | cons hb hr => exact ⟨_, hb, except_bind_ok.2 ⟨_, (ih _).2 hr, rfl⟩⟩

/-- **C75.** The investment options of the document are built exactly when there is a cluster and every
cluster covers the branches of the first one, with every positive size in the catalogue (and the oversized
size and cost, and the branch's length, given); then there is one option per cluster, in order, that lists
exactly the branches with a positive size, 1-based and increasing, with the capacity `oversize` places
further in the catalogue, at the sum of unit cost times length. -/
theorem C75_options (cat costs lengths : List Rat) (oversize : Nat) (clusters : List (List Rat)) (os : List AttestOption) :
    attestOptions cat costs lengths oversize clusters = .ok os ↔
      ∃ c0, clusters.head? = some c0 ∧
        List.Forall₂ (IsOption cat costs lengths oversize c0.length) clusters os := by
  unfold attestOptions
  rw [except_bind_ok]
  simp only [pyGet_zero, mapM_ok_iff, option_iff]

/-- **C75.** Nothing else fails: if there is a cluster, all clusters have the length of the first, and every
positive size has a catalogue place with the oversized entries, then the options are built. -/
theorem C75_complete (cat costs lengths : List Rat) (oversize : Nat) (c0 : List Rat) (clusters : List (List Rat))
    (hl : ∀ c ∈ c0 :: clusters, c.length = c0.length) (hn : c0.length ≤ lengths.length)
    (hv : ∀ c ∈ c0 :: clusters, ∀ v ∈ c, 0 < v → v ∈ cat.take (cat.length - oversize) ∧
      v ∈ cat.take (costs.length - oversize)) :
    ∃ os, attestOptions cat costs lengths oversize (c0 :: clusters) = .ok os ∧ os.length = clusters.length + 1 := by
  have key : ∀ c ∈ c0 :: clusters, ∃ o, IsOption cat costs lengths oversize c0.length c o := by
    intro c hc
    have hb : ∀ xb < c0.length, ∀ v, c[xb]? = some v → 0 < v →
        ∃ it : Nat × Rat × Rat, it.1 = xb ∧ Bought cat costs lengths oversize c it.1 it.2.1 it.2.2 := by
      intro xb hx v hxv hv0
      obtain ⟨h1, h2⟩ := hv c hc v (List.mem_of_getElem? hxv) hv0
      have first : ∀ m, v ∈ cat.take m → cat.idxOf v < m := by
        intro m hm
        by_contra hcon
        obtain ⟨j, hj, e⟩ := List.mem_iff_getElem.1 hm
        rw [List.getElem_take] at e
        rw [List.length_take] at hj
        have := ((catalogueIndex_iff cat v (cat.idxOf v)).1 (by
          unfold catalogueIndex; rw [if_pos (List.mem_of_mem_take hm)])).2 j (by omega)
        exact this (by rw [List.getElem?_eq_getElem (by omega), e])
      have hv' := List.mem_of_mem_take h1
      obtain ⟨e1, e2⟩ := (catalogueIndex_iff cat v (cat.idxOf v)).1 (by unfold catalogueIndex; rw [if_pos hv'])
      have l1 := first _ h1
      have l2 := first _ h2
      exact ⟨(xb, cat[cat.idxOf v + oversize]'(by omega), _), rfl, ⟨v, costs[cat.idxOf v + oversize]'(by omega),
        lengths[xb]'(by omega), cat.idxOf v, hxv, hv0, e1, e2, List.getElem?_eq_getElem (by omega),
        List.getElem?_eq_getElem (by omega), List.getElem?_eq_getElem (by omega), rfl⟩⟩
    have : ∀ n ≤ c0.length, ∃ o, (List.range n).foldlM (optionStep cat costs lengths oversize c) {} = .ok o := by
      intro n
      induction n with
      | zero => intro _; exact ⟨_, rfl⟩
      | succ n ih =>
        intro hn'
        obtain ⟨o, ho⟩ := ih (by omega)
        have hlen := hl c hc
        have hx : c[n]? = some (c[n]'(by omega)) := List.getElem?_eq_getElem (by omega)
        rw [List.range_succ, List.foldlM_append]
        by_cases h0 : 0 < c[n]'(by omega)
        · obtain ⟨it, rfl, hbt⟩ := hb n (by omega) _ hx h0
          refine ⟨⟨o.cost + it.2.2, o.elements ++ [(it.1 : Int) + 1], o.capacity ++ [it.2.1]⟩,
            except_bind_ok.2 ⟨o, ho, ?_⟩⟩
          simp only [List.foldlM_cons, List.foldlM_nil]
          exact except_bind_ok.2 ⟨_, (optionStep_iff _ _ _ _ _ _ _ _).2 (.inr ⟨_, _, hbt, rfl⟩), rfl⟩
        · refine ⟨o, except_bind_ok.2 ⟨o, ho, ?_⟩⟩
          simp only [List.foldlM_cons, List.foldlM_nil]
          exact except_bind_ok.2 ⟨_, (optionStep_iff _ _ _ _ _ _ _ _).2 (.inl ⟨_, hx, h0, rfl⟩), rfl⟩
    obtain ⟨o, ho⟩ := this _ (le_refl _)
    exact ⟨o, (option_iff _ _ _ _ _ _ _).1 ho⟩
  have : ∀ l : List (List Rat), (∀ c ∈ l, ∃ o, IsOption cat costs lengths oversize c0.length c o) →
      ∃ os, List.Forall₂ (IsOption cat costs lengths oversize c0.length) l os := by
    intro l
    induction l with
    | nil => intro _; exact ⟨[], .nil⟩
    | cons c l ih =>
      intro h
      obtain ⟨o, ho⟩ := h c (by simp)
      obtain ⟨os, hos⟩ := ih (fun c' hc' => h c' (by simp [hc']))
      exact ⟨o :: os, .cons ho hos⟩
  obtain ⟨os, hos⟩ := this _ key
  exact ⟨os, (C75_options _ _ _ _ _ _).2 ⟨c0, rfl, hos⟩, by simpa using hos.length_eq.symm⟩

example : attestOptions [10, 20, 40] [1, 2, 3] [1, 5, 7] 1 [[0, 10, 20], [20, 0, 0]] =
    .ok [⟨2 * 5 + 3 * 7, [2, 3], [20, 40]⟩, ⟨3 * 1, [1], [40]⟩] := by decide +kernel

example : attestOptions [10, 20, 40] [1, 2, 3] [1, 5, 7] 1 [[0, 40, 20]] = .error .index := by decide +kernel

/-! ## C76: from the option to the network -/

section
variable {K : Type} [Field K] [LinearOrder K] [IsStrictOrderedRing K] {s3 : K}

/-- **C76.** The document's options become the pool: option number `k` is the intervention with key `k`,
an intervention on lines with the option's cost, elements and capacities. -/
theorem C76_pool (os : List AttestOption) (k : Nat) (o : AttestOption) (h : os[k]? = some o) :
    (createPool [attestGroup os] 0)[k]? = some ((k : Int), (⟨"", o.cost, .cluster o.elements, "line", "", 0, .list o.capacity⟩ : BinVar)) ∧
    (createPool [attestGroup os] 0).length = os.length := by
  have hz : (os.map (·.cost)).zip ((os.map (fun o => Pos.cluster o.elements)).zip
      ((os.map (fun _ => (0 : Int))).zip (os.map (fun o => Cap.list o.capacity)))) =
      os.map (fun o => (o.cost, Pos.cluster o.elements, (0 : Int), Cap.list o.capacity)) := by
    rw [List.zip_map', List.zip_map', List.zip_map']
  unfold createPool attestGroup createPool
  simp only [hz, List.append_nil, List.map_map]
  constructor
  · simp [h]
  · simp

theorem cluster_eq_fold (items : List (Int × Rat)) : ∀ (net : Net K) (name : String) (value : Option K),
    applyParam s3 net ⟨"line", name, .cluster (items.map (fun u => u.1 + 1)), value, .list (items.map (·.2))⟩ =
      (items.map (fun u => (⟨"line", name, .single u.1, value, .num u.2⟩ : Param K))).foldlM (applyParam s3) net := by
  induction items with
  | nil => intro net name value; rfl
  | cons u us ih =>
    intro net name value
    simp only [List.map_cons, List.foldlM_cons]
    rw [C39_cluster_step, add_sub_cancel_right]
    congr 1
    funext net'
    exact ih net' name value

/-- **C76.** Applying the intervention made from the option of cluster `c` to a network in which every bought
line exists (with positive voltage and current limit) succeeds and does exactly what the cluster asks: every
branch with a positive size gets its bought capacity (its limit grows by capacity / (√3 V), and resistance and
reactance shrink in proportion), and no other line, load or voltage changes. -/
theorem C76_option_upgrades (hs : 0 < s3) (cat costs lengths : List Rat) (oversize n : Nat) (c : List Rat)
    (o : AttestOption) (ho : IsOption cat costs lengths oversize n c o) (hcat : ∀ x ∈ cat, 0 ≤ x) (net : Net K)
    (hnet : ∀ (xb : Nat) (v : Rat), xb < n → c[xb]? = some v → 0 < v →
      ∃ l volt, net.lines xb = some l ∧ net.vn l.fromBus = some volt ∧ 0 < volt ∧ 0 < l.maxI)
    (b : BinVar) (hb1 : b.elementType = "line") (hb2 : b.position = .cluster o.elements)
    (hb3 : b.capacity = .list o.capacity) :
    ∃ net', applyParam s3 net (statusParam b) = .ok net' ∧
      net'.loads = net.loads ∧ net'.vn = net.vn ∧
      (∀ p : Int, (¬ ∃ (xb : Nat) (v : Rat), p = xb ∧ xb < n ∧ c[xb]? = some v ∧ 0 < v) → net'.lines p = net.lines p) ∧
      ∀ (xb : Nat) (v : Rat) (l : Line K) (volt : K), xb < n → c[xb]? = some v → 0 < v → net.lines xb = some l →
        net.vn l.fromBus = some volt →
        ∃ cap cost, Bought cat costs lengths oversize c xb cap cost ∧
          net'.lines xb = some
            { inService := true
              fromBus := l.fromBus
              maxI := l.maxI + (cap : K) / (volt * s3)
              r := l.r * l.maxI / (l.maxI + (cap : K) / (volt * s3))
              x := l.x * l.maxI / (l.maxI + (cap : K) / (volt * s3)) } := by
  obtain ⟨_, items, hp, hm, hb, h1, h2, _⟩ := ho
  let ups : List (Int × Rat) := items.map (fun it => ((it.1 : Int), it.2.1))
  have hups : ∀ u ∈ ups, ∃ it ∈ items, u = ((it.1 : Int), it.2.1) := by
    intro u hu
    obtain ⟨it, hit, rfl⟩ := List.mem_map.1 hu
    exact ⟨it, hit, rfl⟩
  have hU : Upgradable net ups := by
    intro u hu
    obtain ⟨it, hit, rfl⟩ := hups u hu
    obtain ⟨_, _, _, _, _, _, _, _, hcap, _⟩ := (hb it hit).item
    obtain ⟨hx, w, hw, hw0⟩ := (hm it.1).1 (List.mem_map_of_mem hit)
    exact ⟨hcat _ (List.mem_of_getElem? hcap), hnet it.1 w hx hw hw0⟩
  obtain ⟨net', e, a1, a2, _, _, a5, a6⟩ := C40_closed_form hs ups net hU
  refine ⟨net', ?_, a1, a2, ?_, ?_⟩
  · rw [← e]
    unfold statusParam
    rw [hb1, hb2, hb3, h1, h2]
    have := cluster_eq_fold (s3 := s3) ups net "in_service" none
    have e1 : ups.map (fun u => u.1 + 1) = items.map (fun it => (it.1 : Int) + 1) := List.map_map
    have e2 : ups.map (·.2) = items.map (fun it => it.2.1) := List.map_map
    rw [e1, e2] at this
    exact this
  · intro p hn
    apply a5
    rintro u hu rfl
    obtain ⟨it, hit, rfl⟩ := hups u hu
    obtain ⟨hx, w, hw, hw0⟩ := (hm it.1).1 (List.mem_map_of_mem hit)
    exact hn ⟨it.1, w, rfl, hx, hw, hw0⟩
  · intro xb v l volt hx hv hv0 hl hvolt
    obtain ⟨it, hit, rfl⟩ := List.mem_map.1 ((hm xb).2 ⟨hx, v, hv, hv0⟩)
    refine ⟨it.2.1, it.2.2, hb it hit, ?_⟩
    have ht : totalCap ups (it.1 : Int) = it.2.1 := by
      unfold totalCap
      have hf : ups.filter (fun u => decide (u.1 = (it.1 : Int))) = [((it.1 : Int), it.2.1)] := by
        have hnd : (items.map (·.1)).Nodup := hp.imp (fun h => Nat.ne_of_lt h)
        have : ∀ (its : List (Nat × Rat × Rat)), (its.map (·.1)).Nodup → it ∈ its →
            (its.map (fun it => ((it.1 : Int), it.2.1))).filter (fun u => decide (u.1 = (it.1 : Int))) =
              [((it.1 : Int), it.2.1)] := by
          intro its
          induction its with
          | nil => intro _ h; cases h
          | cons a its ih =>
            intro hn hmem
            rw [List.map_cons, List.nodup_cons] at hn
            rw [List.map_cons, List.filter_cons]
            rcases List.mem_cons.1 hmem with rfl | hmem
            · rw [if_pos (by simp)]
              congr 1
              rw [List.filter_eq_nil_iff]
              intro u hu
              obtain ⟨a', ha', rfl⟩ := List.mem_map.1 hu
              simp only [decide_eq_true_eq, Int.natCast_inj]
              intro h
              exact hn.1 (h ▸ List.mem_map_of_mem ha')
            · rw [if_neg]
              · exact ih hn.2 hmem
              · simp only [decide_eq_true_eq, Int.natCast_inj]
                intro h
                exact hn.1 (h ▸ List.mem_map_of_mem hmem)
        exact this items hnd hit
      rw [hf]
      simp
    have := a6 it.1 l volt ⟨_, List.mem_map_of_mem hit, rfl⟩ hl hvolt
    rw [ht] at this
    exact this

end

/-- a network of three lines, the option `elements [2, 3], capacity [20, 40]` and the result: lines 1 and 2
(0-based) have the new limits, line 0 is as before -/
example : IsOption [10, 20, 40] [1, 2, 3] [1, 5, 7] 1 3 [0, 10, 20] ⟨2 * 5 + 3 * 7, [2, 3], [20, 40]⟩ ∧
    ∃ net', applyParam (2 : Rat) (⟨fun p => if p = 0 ∨ p = 1 ∨ p = 2 then some ⟨true, 0, 5, 1, 1⟩ else none,
        [], fun _ => some 10, false, 0⟩ : Net Rat)
      (statusParam { elementType := "line", position := .cluster [2, 3], cost := 31, capacity := .list [20, 40] }) = .ok net' ∧
      (net'.lines 0).map (·.maxI) = some 5 ∧ (net'.lines 1).map (·.maxI) = some 6 ∧
      (net'.lines 2).map (·.maxI) = some 7 := by
  refine ⟨(option_iff _ _ _ _ _ _ _).1 (by decide +kernel), _, rfl, ?_⟩
  decide +kernel

/-! ## C77: options given as text -/

/-- what a reader of the command line expects of a list of one-digit numbers with separators -/
def digitText (n : Fin 10) : Char := Char.ofNat (48 + n)

theorem digitsOption_append (a b : List Char) : digitsOption (a ++ b) = digitsOption a ++ digitsOption b := by
  simp [digitsOption]

theorem digitsOption_digit (n : Fin 10) : digitsOption [digitText n] = [(n.val : Rat)] := by
  revert n
  decide

/-- **C77.** A list of one-digit numbers in text, with any separators that contain no digit before, between
and after them, is read as those numbers. -/
theorem C77_single_digits_partial (items : List (List Char × Fin 10)) (tail : List Char)
    (hs : ∀ it ∈ items, ∀ ch ∈ it.1, ¬ ('0' ≤ ch ∧ ch ≤ '9')) (ht : ∀ ch ∈ tail, ¬ ('0' ≤ ch ∧ ch ≤ '9')) :
    digitsOption (items.flatMap (fun it => it.1 ++ [digitText it.2]) ++ tail) = items.map (fun it => ((it.2.val : Nat) : Rat)) := by
  have none : ∀ l : List Char, (∀ ch ∈ l, ¬ ('0' ≤ ch ∧ ch ≤ '9')) → digitsOption l = [] := by
    intro l hl
    unfold digitsOption
    rw [List.map_eq_nil_iff, List.filter_eq_nil_iff]
    intro ch hch
    simpa using hl ch hch
  rw [digitsOption_append, none tail ht, List.append_nil]
  induction items with
  | nil => rfl
  | cons it its ih =>
    rw [List.flatMap_cons, digitsOption_append, digitsOption_append, digitsOption_digit,
      none it.1 (hs it (by simp)), ih (fun i hi => hs i (by simp [hi]))]
    rfl

/-- **C77.** Every value is one digit: whatever the text, no number above nine, no fraction and no negative
number is ever read. -/
theorem C77_violated_only_digits (s : List Char) : ∀ x ∈ digitsOption s, ∃ n : Fin 10, x = ((n.val : Nat) : Rat) := by
  intro x hx
  unfold digitsOption at hx
  obtain ⟨ch, hch, rfl⟩ := List.mem_map.1 hx
  have := (List.mem_filter.1 hch).2
  simp only [decide_eq_true_eq] at this
  obtain ⟨h1, h2⟩ := this
  have e1 : ('0' : Char).toNat ≤ ch.toNat := h1
  have e2 : ch.toNat ≤ ('9' : Char).toNat := h2
  have e3 : ('0' : Char).toNat = 48 := rfl
  have e4 : ('9' : Char).toNat = 57 := rfl
  exact ⟨⟨ch.toNat - 48, by omega⟩, rfl⟩

/-- **C77.** The text "10.5, 20" is read as five numbers. -/
theorem C77_violated : digitsOption "10.5, 20".toList = [1, 0, 5, 2, 0] := by decide +kernel

/-! ## C78: the fixed multipliers -/

/-- **C78.** Every row of the fixed table is evenly spaced between its first and last entries, and both
economies grow from 1 in 2030 and 2040; the fast economy also in 2050. -/
theorem C78_rows_partial (a30 a40 a50 s30 s40 s50 : Rat) :
    ∃ m30 m40 m50, countryMultipliers a30 a40 a50 s30 s40 s50 = [[1], m30, m40, m50] ∧
      m30.length = 2 ∧ m40.length = 4 ∧ m50.length = 8 ∧
      (∀ m ∈ [m30, m40, m50], ∀ (j : Nat) (x f l : Rat), m[j]? = some x → m.head? = some f → m.getLast? = some l →
        x = f - j * (f - l) / ((m.length : Rat) - 1)) ∧
      GrownRow [1] m30 2 10 a30 s30 ∧ GrownRow m30 m40 4 10 a40 s40 ∧
      ∃ f4 f5, m40.head? = some f4 ∧ m50.head? = some f5 ∧ f5 = f4 * (1 + a50 * 10 / 100) := by
  let f := (1 + a30 * 10 / 100) * (1 + a40 * 10 / 100)
  let l := (1 + s30 * 10 / 100) * (1 + s40 * 10 / 100)
  let f5 := f * (1 + a50 * 10 / 100)
  let l5 := (f - (f - l) * 1 / 3) * (1 + s50 * 10 / 100)
  have ev2 : ∀ (a b : Rat) (j : Nat) (x f l : Rat), [a, b][j]? = some x → [a, b].head? = some f →
      [a, b].getLast? = some l → x = f - j * (f - l) / (((2 : Nat) : Rat) - 1) := by
    intro a b j x f l hj hf hl
    simp at hf hl
    subst hf hl
    rcases j with _ | _ | j <;> simp at hj
    · subst hj; simp
    · subst hj; push_cast; ring
  have ev4 : ∀ (a b : Rat) (j : Nat) (x f l : Rat), [a, a - (a - b) * 1 / 3, a - (a - b) * 2 / 3, b][j]? = some x →
      [a, a - (a - b) * 1 / 3, a - (a - b) * 2 / 3, b].head? = some f →
      [a, a - (a - b) * 1 / 3, a - (a - b) * 2 / 3, b].getLast? = some l →
      x = f - j * (f - l) / (((4 : Nat) : Rat) - 1) := by
    intro a b j x f l hj hf hl
    simp at hf hl
    subst hf hl
    rcases j with _ | _ | _ | _ | j <;> simp at hj <;> subst hj <;> push_cast <;> ring
  have e50 : f5 :: ((List.range 6).map (fun i => f5 - (f5 - l5) * ((i : Rat) + 1) / 7)) ++ [l5] =
      [f5, f5 - (f5 - l5) * (0 + 1) / 7, f5 - (f5 - l5) * (1 + 1) / 7, f5 - (f5 - l5) * (2 + 1) / 7,
       f5 - (f5 - l5) * (3 + 1) / 7, f5 - (f5 - l5) * (4 + 1) / 7, f5 - (f5 - l5) * (5 + 1) / 7, l5] := by
    simp [List.range_succ]
  refine ⟨[1 + a30 * 10 / 100, 1 + s30 * 10 / 100], [f, f - (f - l) * 1 / 3, f - (f - l) * 2 / 3, l],
    f5 :: ((List.range 6).map (fun i => f5 - (f5 - l5) * ((i : Rat) + 1) / 7)) ++ [l5], rfl, rfl, rfl, ?_, ?_, ?_, ?_, ?_⟩
  · simp
  · intro m hm
    simp only [List.mem_cons, List.not_mem_nil, or_false] at hm
    rcases hm with rfl | rfl | rfl
    · exact ev2 _ _
    · exact ev4 _ _
    · intro j x a b hj ha hb
      rw [e50] at hj ha hb ⊢
      simp at ha hb
      subst ha hb
      rcases j with _ | _ | _ | _ | _ | _ | _ | _ | j <;> simp at hj <;> subst hj <;> push_cast <;>
        simp only [List.length_cons, List.length_nil] <;> push_cast <;> ring
  · refine ⟨rfl, ⟨1, 1, rfl, rfl, ?_, ?_⟩, ev2 _ _⟩
    · simp
    · simp
  · exact ⟨rfl, ⟨_, _, rfl, rfl, rfl, rfl⟩, ev4 _ _⟩
  · exact ⟨f, f5, rfl, rfl, rfl⟩

/-- **C78.** The slow economy of 2050 does not grow from the slow economy of 2040: it does so exactly when the
two economies of 2040 coincide or the slow rate wipes the demand out. -/
theorem C78_violated_slow_2050 (a30 a40 a50 s30 s40 s50 : Rat) (m30 m40 m50 : List Rat)
    (h : countryMultipliers a30 a40 a50 s30 s40 s50 = [[1], m30, m40, m50]) :
    GrownRow m40 m50 8 10 a50 s50 ↔ m40.head? = m40.getLast? ∨ s50 = -10 := by
  obtain ⟨m30', m40', m50', h', _, _, l50, hev, _, _, f4, f5, hf4, hf5, hff⟩ := C78_rows_partial a30 a40 a50 s30 s40 s50
  rw [h'] at h
  injection h with _ h
  injection h with e1 h
  injection h with e2 h
  injection h with e3 h
  subst e1 e2 e3
  let f := (1 + a30 * 10 / 100) * (1 + a40 * 10 / 100)
  let l := (1 + s30 * 10 / 100) * (1 + s40 * 10 / 100)
  have hm40 : m40' = [f, f - (f - l) * 1 / 3, f - (f - l) * 2 / 3, l] := by
    unfold countryMultipliers at h'
    injection h' with _ h'
    injection h' with _ h'
    injection h' with h' _
    exact h'.symm
  have hl50 : m50'.getLast? = some ((f - (f - l) * 1 / 3) * (1 + s50 * 10 / 100)) := by
    unfold countryMultipliers at h'
    injection h' with _ h'
    injection h' with _ h'
    injection h' with _ h'
    injection h' with h' _
    rw [← h', List.getLast?_append]
    rfl
  have hhead : m40'.head? = some f := by rw [hm40]; rfl
  have hlast : m40'.getLast? = some l := by rw [hm40]; rfl
  rw [hhead] at hf4
  injection hf4 with hf4
  constructor
  · intro g
    obtain ⟨a, b, ha, hb, _, hb'⟩ := g.ends
    rw [hhead] at ha
    rw [hlast] at hb
    injection ha with ha
    injection hb with hb
    rw [hl50] at hb'
    injection hb' with hb'
    rw [← hb] at hb'
    have : (f - l) * (10 + s50) = 0 := by linarith
    rcases mul_eq_zero.1 this with h0 | h0
    · left
      rw [hhead, hlast]
      congr 1
      linarith
    · right
      linarith
  · intro hc
    refine ⟨l50, ⟨f, l, hhead, hlast, ?_, ?_⟩, ?_⟩
    · rw [hf5, hff, ← hf4]
    · rw [hl50]
      congr 1
      rcases hc with hc | rfl
      · rw [hhead, hlast] at hc
        injection hc with hc
        rw [hc]
        ring
      · norm_num
    · intro j x a b hj ha hb
      have := hev m50' (by simp) j x a b hj ha hb
      rw [l50] at this
      exact this

/-- with the rates of the file (SM:60-71) the slow economy of 2050 is not grown from that of 2040 -/
example : ∃ m30 m40 m50, countryMultipliers 1.6 1.1 2.6 1.35 0.65 0.7 = [[1], m30, m40, m50] ∧
    ¬ GrownRow m40 m50 8 10 2.6 0.7 := by
  refine ⟨_, _, _, rfl, ?_⟩
  rw [C78_violated_slow_2050 1.6 1.1 2.6 1.35 0.65 0.7 _ _ _ rfl]
  decide +kernel

/-- **C75**.  Without line costs every size of the catalogue costs 40000 per unit, otherwise the given costs are used;
without lengths every line has length one, and missing lengths are those of the first line. -/
theorem C75_defaults (cat costs : List Rat) (noLines : Nat) (lengths : List Rat) :
    (costs = [] → (lineCosts cat costs).length = cat.length ∧
      ∀ (i : Nat) (v : Rat), cat[i]? = some v → (lineCosts cat costs)[i]? = some (40000 * v)) ∧
    (costs ≠ [] → lineCosts cat costs = costs) ∧
    (lengths = [] → ∀ i < noLines, (lineLengths noLines lengths)[i]? = some 1) ∧
    (∀ (i : Nat) (v : Rat), lengths[i]? = some v → (lineLengths noLines lengths)[i]? = some v) ∧
    (∀ v : Rat, lengths[0]? = some v → ∀ i < noLines, lengths.length ≤ i → (lineLengths noLines lengths)[i]? = some v) := by
  refine ⟨?_, ?_, ?_, ?_, ?_⟩
  · rintro rfl
    refine ⟨by simp [lineCosts], fun i v hv => ?_⟩
    simp [lineCosts, hv]
  · intro h; simp [lineCosts, h]
  · rintro rfl i hi
    simp [lineLengths, hi]
  · intro i v hv
    cases lengths with
    | nil => simp at hv
    | cons l ls =>
      have hi : i < (l :: ls).length := (List.getElem?_eq_some_iff.1 hv).1
      show ((l :: ls) ++ _)[i]? = _
      rw [List.getElem?_append_left hi, hv]
  · intro v hv i hi hl
    cases lengths with
    | nil => simp at hv
    | cons l ls =>
      simp only [List.getElem?_cons_zero, Option.some.injEq] at hv
      subst hv
      show ((l :: ls) ++ _)[i]? = _
      rw [List.getElem?_append_right hl, List.getElem?_replicate, if_pos (by omega)]

theorem mapM_zipIdx_iff {α β : Type} (l : List α) (f : α × Nat → Except PyErr β) (r : List β) :
    l.zipIdx.mapM f = .ok r ↔ r.length = l.length ∧ ∀ (i : Nat) (a : α), l[i]? = some a → ∃ b, f (a, i) = .ok b ∧ r[i]? = some b := by
  rw [mapM_ok_iff, List.forall₂_iff_get]
  simp only [List.length_zipIdx, List.get_eq_getElem, List.getElem_zipIdx, Nat.zero_add]
  constructor
  · rintro ⟨hl, h⟩
    refine ⟨hl.symm, fun i a ha => ?_⟩
    obtain ⟨hi, rfl⟩ := List.getElem?_eq_some_iff.1 ha
    exact ⟨r[i]'(by omega), h i hi (by omega), List.getElem?_eq_getElem _⟩
  · rintro ⟨hl, h⟩
    refine ⟨hl.symm, fun i h1 h2 => ?_⟩
    obtain ⟨b, e1, e2⟩ := h i l[i] (List.getElem?_eq_getElem h1)
    rw [List.getElem?_eq_getElem h2, Option.some.injEq] at e2
    rw [e2]; exact e1

/-- **C49**.  The factor handed to every bus in every year and scenario is the growth multiplier times the flexibility
factor of that year and scenario, one factor per bus. -/
theorem C49_bus_factors (noBus : Nat) (multiplier flex : List (List Rat)) (r : List (List (List Rat))) :
    multForBus noBus multiplier flex = .ok r ↔ r.length = multiplier.length ∧
      ∀ (y : Nat) (row : List Rat), multiplier[y]? = some row → ∃ rr : List (List Rat), r[y]? = some rr ∧
        rr.length = row.length ∧ ∀ (s : Nat) (m : Rat), row[s]? = some m →
          ∃ (frow : List Rat) (f : Rat), flex[y]? = some frow ∧ frow[s]? = some f ∧
            rr[s]? = some (List.replicate noBus (m * f)) := by
  unfold multForBus
  rw [mapM_zipIdx_iff]
  refine and_congr_right fun _ => forall_congr' fun y => forall_congr' fun row => forall_congr' fun hy => ?_
  constructor
  · rintro ⟨b, hb, hr⟩
    obtain ⟨hl, h⟩ := (mapM_zipIdx_iff _ _ _).1 hb
    refine ⟨b, hr, hl, fun s m hs => ?_⟩
    obtain ⟨c, hc, hcb⟩ := h s m hs
    dsimp only at hc
    cases hf : flex[y]? with
    | none => rw [hf] at hc; simp at hc
    | some frow =>
      rw [hf] at hc
      simp only [Option.bind_some] at hc
      cases hfs : frow[s]? with
      | none => rw [hfs] at hc; simp at hc
      | some f =>
        rw [hfs] at hc
        simp only [Except.ok.injEq] at hc
        exact ⟨frow, f, rfl, hfs, by rw [hcb, ← hc]⟩
  · rintro ⟨rr, hr, hl, h⟩
    refine ⟨rr, (mapM_zipIdx_iff _ _ _).2 ⟨hl, fun s m hs => ?_⟩, hr⟩
    obtain ⟨frow, f, h1, h2, h3⟩ := h s m hs
    refine ⟨_, ?_, h3⟩
    dsimp only
    rw [h1]
    simp [h2]

end Pyensys
