import Verif.Lemmas.GraphTree
import Verif.Props.Graph
import Mathlib.Data.List.Perm.Subperm

/-! # C34: conversion of the control graph into a tree -/

namespace Pyensys

/-- **C34.** For every layered graph with a single root whose nodes are those that have data, every order in
which Python may iterate its sets and every sufficient recursion limit: the conversion succeeds; its
result is a tree rooted in the root of the graph (every other node has exactly one predecessor); the
result unfolds the graph, i.e. the root-to-leaf paths of tree and graph correspond one to one; and
the nodes of the tree are exactly those that have data, namely the data of the graph node they stand
for. -/
theorem C34_conversion {D : Type} (G : List (Nat × Nat)) (lv : Nat → Nat) (L root : Nat)
    (hL : Layered G lv L root) (data : Nat → Option D) (hdata : ∀ n, IsNode G n ↔ (data n).isSome)
    (ord : List Nat → List Nat) (hord : SetOrder ord) (fuel iter : Nat) (hf : L < fuel) (hi : L < iter) :
    ∃ data' T org, convertTree ord fuel iter data G = .ok (data', T) ∧ RootedTree T root ∧
      Unfolds T G org root ∧ (∀ n, IsNode T n ↔ (data' n).isSome) ∧
      ∀ n, IsNode T n → data' n = data (org n) := by
  have hfirst := hL.firstNode
  obtain ⟨ns, hns⟩ : ∃ ns, nodesOf G = root :: ns := by
    unfold firstNode at hfirst
    cases h : nodesOf G with
    | nil => rw [h] at hfirst; cases hfirst
    | cons a as =>
      rw [h] at hfirst
      injection hfirst with hfirst
      exact ⟨as, by rw [hfirst]⟩
  obtain ⟨t, ht⟩ : ∃ t, isTree G = .ok t := by
    unfold isTree
    rw [hns]
    exact ⟨_, rfl⟩
  cases t with
  | true =>
    have hlen : G.length = ns.length := by
      unfold isTree at ht
      rw [hns] at ht
      injection ht with ht
      rw [Bool.and_eq_true] at ht
      have := ht.1
      rw [beq_iff_eq] at this
      simpa using this
    have hnd := nodesOf_nodup G
    rw [hns, List.nodup_cons] at hnd
    have hsub : ns ⊆ G.map (·.2) := by
      intro n hn
      have hnode : IsNode G n := by
        rw [← mem_nodesOf, hns]
        exact List.mem_cons_of_mem _ hn
      obtain ⟨⟨a, b⟩, he, hab⟩ := hnode
      simp only at hab
      rcases hab with rfl | rfl
      · have hpos : 0 < lv a := by
          rcases Nat.eq_zero_or_pos (lv a) with h0 | h0
          · have := hL.rootOnly _ _ he h0
            subst this
            exact absurd hn hnd.1
          · exact h0
        obtain ⟨c, hc⟩ := hL.hasPred _ _ he hpos
        exact List.mem_map.2 ⟨_, hc, rfl⟩
      · exact List.mem_map.2 ⟨_, he, rfl⟩
    have hperm : ns.Perm (G.map (·.2)) :=
      (List.subperm_of_subset hnd.2 hsub).perm_of_length_le (by simp [hlen])
    have hheads : (G.map (·.2)).Nodup := hperm.nodup_iff.1 hnd.2
    refine ⟨data, G, id, ?_, ?_, ?_, hdata, fun _ _ => rfl⟩
    · unfold convertTree
      rw [ht]
      rfl
    · exact {
        nodup := hL.nodup
        rootTop := by
          intro a ha
          have := hL.step _ _ ha
          have := hL.rootLv
          omega
        onePred := fun a a' b => onePred_of_nodup hheads a a' b
        reached := fun n hn => hL.reached _ n hn rfl }
    · exact {
        rootOrg := rfl
        down := fun q hq => by simpa using hq
        lift := fun p hp => ⟨p, ⟨hp, by simp⟩, fun q' _ h => by simpa using h⟩
        leaves := fun n _ => Iff.rfl }
  | false =>
    obtain ⟨g, hg, _, hgr⟩ := searchGreatest_spec hL fuel root root (by rw [hL.rootLv]; omega)
      (by rw [hL.rootLv]; omega) (Nat.le_refl _)
    have hreach : ∀ n, IsNode G n → Reach G root n := fun n hn => hL.reached _ n hn rfl
    have hends : EndsLe G g := fun e he =>
      ⟨hgr _ (hreach _ ⟨e, he, .inl rfl⟩), hgr _ (hreach _ ⟨e, he, .inr rfl⟩)⟩
    have hrootg : root ≤ g := hgr _ (Reach.refl _ _)
    obtain ⟨layer, hlay, hlaym⟩ := lastNodes_spec hL fuel root [] (by rw [hL.rootLv]; omega)
      (by rw [hL.rootLv]; omega)
    have hreachnode : ∀ n m, Reach G n m → IsNode G n → IsNode G m := by
      rintro n m ⟨p, hp, hl⟩
      induction hp with
      | single n =>
        have : n = m := by simpa using hl
        subst this
        exact id
      | step he hp ih =>
        intro _
        refine ih ?_ ⟨_, he, .inr rfl⟩
        rw [List.getLast?_cons] at hl
        cases hh : List.getLast? _ with
        | none => exact absurd (List.getLast?_eq_none_iff.1 hh) hp.ne_nil
        | some y => rw [hh] at hl; simpa using hl
    obtain ⟨b0, hb0⟩ := hL.root_edge
    have hrootnode : IsNode G root := ⟨_, hb0, .inl rfl⟩
    have hlay' : ∀ n, n ∈ layer ↔ IsNode G n ∧ lv n = L := by
      intro n
      rw [hlaym n]
      constructor
      · rintro (h | ⟨h1, h2⟩)
        · cases h
        · have := hreachnode _ _ h1 hrootnode
          exact ⟨this, (hL.leaf_iff this).1 h2⟩
      · rintro ⟨h1, h2⟩
        exact .inr ⟨hreach n h1, (hL.leaf_iff h1).2 h2⟩
    obtain ⟨nL, hnL⟩ := hL.exists_level L (Nat.le_refl _)
    have hlayne : layer ≠ [] := by
      intro h
      have := (hlay' nL).2 hnL
      rw [h] at this
      cases this
    obtain ⟨st, org, h1, h2⟩ := convertLoop_spec G lv L data ord hord hL
      (fun a b hab => (hdata b).1 ⟨_, hab, .inr rfl⟩) hends hf L iter layer
      { data := data, greatest := g } id (Nat.le_refl _) hi
      { ends := by intro e he; cases he
        ge := Nat.le_refl _
        orig := fun _ _ => rfl
        data := ⟨fun _ _ => rfl, by
          intro n hn
          cases hd : data n with
          | none => exact hd
          | some d =>
            exfalso
            obtain ⟨e, he, h⟩ := (hdata n).2 (by rw [hd]; rfl)
            have := hends e he
            simp only at hn
            rcases h with rfl | rfl <;> omega⟩
        nodup := List.nodup_nil
        doneLv := by simp
        headsOrig := by intro e he; cases he
        headsDone := by
          rintro n _ ⟨c, hc⟩ (h | h)
          · have := hL.bounded _ _ hc
            omega
          · cases h
        headsCopies := by
          intro n h1 h2
          simp only at h2
          omega
        complete := by
          intro n h1 h2
          simp only at h1
          have hs : succOf G n = [] := by
            refine succOf_eq_nil ?_
            rintro ⟨a, b⟩ he rfl
            have := hL.bounded _ _ he
            have := hL.step _ _ he
            simp only at h2 h1
            omega
          unfold Complete
          simp only [id]
          rw [hs]
          simp [succOf]
        part := by intro n h1 h2; simp [succOf]
        low := by intro n h1 h2; rfl }
      hlay' hlayne
    have hS : ∀ n, n ≤ st.greatest → Complete G st.edges org n := fun n hn => h2.complete n hn (.inr (Nat.zero_le _))
    have hSs : ∀ n, n ≤ st.greatest → ∀ s ∈ succOf st.edges n, s ≤ st.greatest :=
      fun n _ s hs => (h2.ends _ (mem_succOf.1 hs)).2
    have hge := h2.ge
    have hrootorg : org root = root := h2.orig root hrootg
    have hnodele : ∀ n, IsNode st.edges n → n ≤ st.greatest := by
      rintro n ⟨e, he, rfl | rfl⟩
      · exact (h2.ends e he).1
      · exact (h2.ends e he).2
    have hlevel : ∀ a b, (a, b) ∈ st.edges → lv (org b) = lv (org a) + 1 := by
      intro a b hab
      exact hL.step _ _ (mem_succOf.1 ((hS a (h2.ends _ hab).1).mem_iff.1
        (List.mem_map_of_mem (mem_succOf.2 hab))))
    have hGedge : ∀ a b, (a, b) ∈ st.edges → (org a, org b) ∈ G := by
      intro a b hab
      exact (mem_succOf.1 ((hS a (h2.ends _ hab).1).mem_iff.1
        (List.mem_map_of_mem (mem_succOf.2 hab))))
    have hpred : ∀ n, IsNode st.edges n → n = root ∨ ∃ c, (c, n) ∈ st.edges := by
      intro n hn
      by_cases hlt : g < n
      · obtain ⟨⟨a, b⟩, he, hh⟩ := h2.headsCopies n hlt (hnodele n hn)
        simp only at hh
        subst hh
        exact .inr ⟨a, he⟩
      · obtain ⟨⟨a, b⟩, he, hab⟩ := hn
        simp only at hab
        rcases hab with rfl | rfl
        · have hG := hGedge _ _ he
          rw [h2.orig a (by omega)] at hG
          rcases Nat.eq_zero_or_pos (lv a) with h0 | h0
          · exact .inl (hL.rootOnly _ _ hG h0)
          · right
            obtain ⟨⟨c, d⟩, hcd, hh⟩ := h2.headsDone a (by omega) (hL.hasPred _ _ hG h0) (.inl h0)
            simp only at hh
            subst hh
            exact ⟨c, hcd⟩
        · exact .inr ⟨a, he⟩
    have hreachT : ∀ (k n : Nat), IsNode st.edges n → lv (org n) = k → Reach st.edges root n := by
      intro k
      induction k with
      | zero =>
        intro n hn hk
        rcases hpred n hn with rfl | ⟨c, hc⟩
        · exact Reach.refl _ _
        · have := hlevel _ _ hc
          omega
      | succ k ih =>
        intro n hn hk
        rcases hpred n hn with rfl | ⟨c, hc⟩
        · exact Reach.refl _ _
        · have := hlevel _ _ hc
          exact (ih c ⟨_, hc, .inl rfl⟩ (by omega)).snoc hc
    refine ⟨st.data, st.edges, org, ?_, ?_, ?_, ?_, ?_⟩
    · unfold convertTree greatestNode
      simp only [ht, hfirst, hg, hlay, h1, bind, Except.bind, Bool.false_eq_true, if_false]
      rfl
    · exact {
        nodup := nodup_of_map_snd h2.nodup
        rootTop := by
          intro a ha
          have := hlevel _ _ ha
          rw [hrootorg, hL.rootLv] at this
          omega
        onePred := fun a a' b => onePred_of_nodup h2.nodup a a' b
        reached := fun n hn => hreachT _ n hn rfl }
    · exact {
        rootOrg := hrootorg
        down := by
          intro q hq
          have := unfold_down hS hSs hq (by omega)
          rwa [hrootorg] at this
        lift := fun p hp => unfold_lift hL.nodup hS hSs hp root (by omega) hrootorg
        leaves := fun n hn => complete_leaf (hS n (hnodele n hn)) }
    · intro n
      constructor
      · intro hn
        rw [h2.data.1 n (hnodele n hn), ← hdata]
        obtain ⟨⟨a, b⟩, he, hab⟩ := hn
        simp only at hab
        rcases hab with rfl | rfl
        · exact ⟨_, hGedge _ _ he, .inl rfl⟩
        · exact ⟨_, hGedge _ _ he, .inr rfl⟩
      · intro hs
        by_cases hle : n ≤ st.greatest
        · by_cases hlt : g < n
          · obtain ⟨e, he, hh⟩ := h2.headsCopies n hlt hle
            exact ⟨e, he, .inr hh⟩
          · rw [h2.data.1 n hle, h2.orig n (by omega), ← hdata] at hs
            rcases Nat.eq_zero_or_pos (lv n) with h0 | h0
            · have hnr : n = root := by
                obtain ⟨⟨a, b⟩, he, hab⟩ := hs
                simp only at hab
                rcases hab with rfl | rfl
                · exact hL.rootOnly _ _ he h0
                · have := hL.step _ _ he
                  omega
              subst hnr
              have : b0 ∈ (succOf st.edges n).map org := (hS n hle).mem_iff.2 (by
                rw [hrootorg]; exact mem_succOf.2 hb0)
              obtain ⟨s, hs', _⟩ := List.mem_map.1 this
              exact ⟨_, mem_succOf.1 hs', .inl rfl⟩
            · have hp : ∃ c, (c, n) ∈ G := by
                obtain ⟨⟨a, b⟩, he, hab⟩ := hs
                simp only at hab
                rcases hab with rfl | rfl
                · exact hL.hasPred _ _ he h0
                · exact ⟨a, he⟩
              obtain ⟨e, he, hh⟩ := h2.headsDone n (by omega) hp (.inl h0)
              exact ⟨e, he, .inr hh⟩
        · rw [h2.data.2 n (by omega)] at hs
          cases hs
    · intro n hn
      exact h2.data.1 n (hnodele n hn)

end Pyensys
