import Verif.Model.Clustering
import Verif.Props.Graph
import Mathlib.Algebra.BigOperators.Group.Finset.Basic
import Mathlib.Algebra.BigOperators.Group.List.Basic
import Mathlib.Data.Finset.Card
import Mathlib.Algebra.BigOperators.Group.Finset.Piecewise
import Mathlib.Algebra.Order.BigOperators.Group.List
import Mathlib.Tactic.FieldSimp
import Mathlib.Tactic.Ring
import Mathlib.Tactic.Linarith
import Mathlib.Tactic.NormNum

/-! # C36, C37, C65: centroids of the clustered scenarios -/

namespace Pyensys

/-! ## Specification -/

/-- the values of the scenarios whose label is `l` -/
def clusterValues (labels : List Nat) (data : List Rat) (l : Nat) : List Rat :=
  ((labels.zip data).filter (fun p => p.1 = l)).map (·.2)

/-- labels 0..k-1, all used -/
def Contiguous (labels : List Nat) : Prop := ∀ l ∈ labels, ∀ j, j ≤ l → j ∈ labels

/-! ## Lemmas -/

/-- value of an entry -/
def valOf (data : List Rat) (e : Nat × Nat) : Rat := (data[e.2]?).getD 0

theorem vstep_eq {data : List Rat} {st : List (List Rat) × Option Nat} {e : Nat × Nat} (h : e.2 < data.length) :
    vstep data st e = addToClusters st e.1 (valOf data e) := by
  unfold vstep valOf
  rw [List.getElem?_eq_getElem h]
  rfl

/-- invariant of the loop: groups 0..c collected so far -/
def GroupInv (data : List Rat) (pre : List (Nat × Nat)) (st : List (List Rat) × Option Nat) : Prop :=
  ((st.2 = none ∧ pre = [] ∧ st.1 = []) ∨
    ∃ c, st.2 = some c ∧ st.1.length = c + 1 ∧ (∀ e ∈ pre, e.1 ≤ c) ∧ ∃ e ∈ pre, e.1 = c) ∧
  ∀ j, j < st.1.length → st.1[j]? = some ((pre.filter (fun e => e.1 = j)).map (valOf data))

theorem groups_contiguous (data : List Rat) (rest : List (Nat × Nat)) :
    ∀ (pre : List (Nat × Nat)) (st : List (List Rat) × Option Nat),
    (pre ++ rest).Pairwise (fun a b => a.1 ≤ b.1) → (∀ e ∈ rest, e.2 < data.length) →
    Contiguous ((pre ++ rest).map (·.1)) → GroupInv data pre st →
    ∃ st', rest.foldlM (vstep data) st = .ok st' ∧ GroupInv data (pre ++ rest) st' := by
  induction rest with
  | nil =>
    intro pre st _ _ _ hinv
    exact ⟨st, rfl, by simpa using hinv⟩
  | cons e rest ih =>
    intro pre st hp hlt hc hinv
    have happ : pre ++ e :: rest = (pre ++ [e]) ++ rest := by simp
    have he := hlt e List.mem_cons_self
    rw [List.foldlM_cons, vstep_eq he]
    have hpre : ∀ x ∈ pre, x.1 ≤ e.1 := fun x hx =>
      (List.pairwise_append.1 hp).2.2 x hx e List.mem_cons_self
    have hrest : ∀ x ∈ rest, e.1 ≤ x.1 := fun x hx =>
      (List.pairwise_cons.1 (List.pairwise_append.1 hp).2.1).1 x hx
    obtain ⟨hcase, hG⟩ := hinv
    -- the new group
    have hnew : ∀ (hsz : st.1.length = e.1) (_hno : ∀ x ∈ pre, x.1 < e.1),
        ∃ st', rest.foldlM (vstep data) (st.1 ++ [[valOf data e]], some e.1) = .ok st' ∧
          GroupInv data (pre ++ e :: rest) st' := by
      intro hsz hno
      rw [happ] at hp hc ⊢
      apply ih (pre ++ [e]) _ hp (fun x hx => hlt x (List.mem_cons_of_mem _ hx)) hc
      refine ⟨Or.inr ⟨e.1, rfl, by simp [hsz], ?_, ⟨e, by simp, rfl⟩⟩, ?_⟩
      · intro x hx
        rcases List.mem_append.1 hx with hx | hx
        · exact (hno x hx).le
        · rw [List.mem_singleton] at hx; rw [hx]
      · intro j hj
        simp only [List.length_append, List.length_singleton] at hj
        rw [List.filter_append, List.map_append]
        by_cases hje : j = e.1
        · subst hje
          rw [List.getElem?_append_right (by omega), hsz]
          have hz : pre.filter (fun x => x.1 = e.1) = [] := by
            apply List.filter_eq_nil_iff.2
            intro x hx
            simpa using (hno x hx).ne
          simp [hz]
        · have hj' : j < st.1.length := by omega
          rw [List.getElem?_append_left hj', hG j hj']
          simp [Ne.symm hje]
    rcases hcase with ⟨h1, h2, h3⟩ | ⟨c, h1, h2, h3, h4⟩
    · have hne : st.2 ≠ some e.1 := by rw [h1]; exact fun h => nomatch h
      unfold addToClusters
      rw [if_neg hne]
      simp only [bind, Except.bind]
      apply hnew
      · rw [h3]
        by_contra hpos
        have hpos : 0 < e.1 := by simpa using Nat.pos_of_ne_zero (Ne.symm hpos)
        have h0 := hc e.1 (by simp) 0 (Nat.zero_le _)
        rw [h2] at h0
        simp only [List.nil_append, List.map_cons, List.mem_cons, List.mem_map] at h0
        rcases h0 with h0 | ⟨x, hx, hx0⟩
        · omega
        · have := hrest x hx; omega
      · rw [h2]; simp
    · by_cases hec : e.1 = c
      · have heq : st.2 = some e.1 := by rw [h1, hec]
        unfold addToClusters
        rw [if_pos heq, if_pos (by omega)]
        simp only [bind, Except.bind]
        rw [happ] at hp hc ⊢
        apply ih (pre ++ [e]) _ hp (fun x hx => hlt x (List.mem_cons_of_mem _ hx)) hc
        refine ⟨Or.inr ⟨c, h1, by simpa using h2, ?_, ⟨e, by simp, hec⟩⟩, ?_⟩
        · intro x hx
          rcases List.mem_append.1 hx with hx | hx
          · exact h3 x hx
          · rw [List.mem_singleton] at hx; rw [hx, hec]
        · intro j hj
          simp only [List.length_modify] at hj
          rw [List.filter_append, List.map_append, List.getElem?_modify, hG j hj]
          by_cases hje : e.1 = j
          · simp [hje]
          · simp [hje]
      · have hne : st.2 ≠ some e.1 := by
          rw [h1]; intro h; injection h with h; exact hec h.symm
        unfold addToClusters
        rw [if_neg hne]
        simp only [bind, Except.bind]
        obtain ⟨x0, hx0, hx0c⟩ := h4
        have hce : c < e.1 := by have := hpre x0 hx0; omega
        apply hnew
        · have hm := hc e.1 (by simp) (c + 1) (by omega)
          simp only [List.map_append, List.map_cons, List.mem_append, List.mem_cons, List.mem_map] at hm
          rcases hm with ⟨x, hx, hxc⟩ | hm | ⟨x, hx, hxc⟩
          · have := h3 x hx; omega
          · omega
          · have := hrest x hx; omega
        · intro x hx
          have := h3 x hx; omega

/-- number of groups = number of distinct labels -/
theorem groups_count (data : List Rat) (rest : List (Nat × Nat)) :
    ∀ (pre : List (Nat × Nat)) (st st' : List (List Rat) × Option Nat),
    (pre ++ rest).Pairwise (fun a b => a.1 ≤ b.1) →
    st.1.length = ((pre.map (·.1)).toFinset).card →
    (∀ l, st.2 = some l ↔ (∃ x ∈ pre, x.1 = l) ∧ ∀ x ∈ pre, x.1 ≤ l) →
    rest.foldlM (vstep data) st = .ok st' →
    st'.1.length = (((pre ++ rest).map (·.1)).toFinset).card := by
  induction rest with
  | nil =>
    intro pre st st' _ h1 _ h
    injection h with h
    rw [← h, h1, List.append_nil]
  | cons e rest ih =>
    intro pre st st' hp h1 h2 h
    have happ : pre ++ e :: rest = (pre ++ [e]) ++ rest := by simp
    have hpre : ∀ x ∈ pre, x.1 ≤ e.1 := fun x hx =>
      (List.pairwise_append.1 hp).2.2 x hx e List.mem_cons_self
    rw [List.foldlM_cons] at h
    simp only [bind, Except.bind] at h
    split at h
    · cases h
    · rename_i st1 hst1
      rw [happ] at hp ⊢
      have hmax : ∀ l, some e.1 = some l ↔ (∃ x ∈ pre ++ [e], x.1 = l) ∧ ∀ x ∈ pre ++ [e], x.1 ≤ l := by
        intro l
        constructor
        · intro hl
          injection hl with hl
          subst hl
          refine ⟨⟨e, by simp, rfl⟩, ?_⟩
          intro x hx
          rcases List.mem_append.1 hx with hx | hx
          · exact hpre x hx
          · rw [List.mem_singleton] at hx; rw [hx]
        · rintro ⟨⟨x, hx, rfl⟩, hall⟩
          have a := hall e (by simp)
          congr 1
          rcases List.mem_append.1 hx with hx | hx
          · have := hpre x hx; omega
          · rw [List.mem_singleton] at hx; rw [hx]
      unfold vstep at hst1
      split at hst1
      · cases hst1
      · rename_i v _
        unfold addToClusters at hst1
        by_cases hs : st.2 = some e.1
        · rw [if_pos hs] at hst1
          split at hst1
          · injection hst1 with hst1
            apply ih (pre ++ [e]) st1 st' hp _ _ h
            · rw [← hst1]
              simp only [List.length_modify]
              rw [h1]
              congr 1
              ext l
              obtain ⟨x, hx, hxe⟩ := ((h2 e.1).1 hs).1
              simp only [List.mem_toFinset, List.mem_map, List.map_append, List.mem_append, List.map_cons,
                List.map_nil, List.mem_singleton]
              constructor
              · exact Or.inl
              · rintro (h | h)
                · exact h
                · exact ⟨x, hx, by rw [hxe, h]⟩
            · rw [← hst1]
              simp only
              rw [hs]
              exact hmax
          · cases hst1
        · rw [if_neg hs] at hst1
          injection hst1 with hst1
          apply ih (pre ++ [e]) st1 st' hp _ _ h
          · rw [← hst1]
            have hnot : e.1 ∉ (pre.map (·.1)).toFinset := by
              intro hm
              apply hs
              rw [h2]
              rw [List.mem_toFinset, List.mem_map] at hm
              exact ⟨hm, hpre⟩
            have : ((pre ++ [e]).map (·.1)).toFinset = insert e.1 (pre.map (·.1)).toFinset := by
              ext l
              simp only [List.mem_toFinset, List.map_append, List.mem_append, List.map_cons, List.map_nil,
                List.mem_singleton, Finset.mem_insert]
              tauto
            rw [this, Finset.card_insert_of_notMem hnot]
            simp [h1]
          · rw [← hst1]
            exact hmax

theorem assign_ok (avg : List Rat) (rest : List Nat) : ∀ (pre : List Nat),
    (∀ l ∈ rest, l < avg.length) → ∀ (done : List Rat), done.length = pre.length →
    (rest.zipIdx pre.length).foldlM (astep avg)
      (done ++ List.replicate rest.length (0 : Rat)) =
    (.ok (done ++ rest.map (fun l => (avg[l]?).getD 0)) : Except PyErr (List Rat)) := by
  induction rest with
  | nil => intro pre _ done _; simp [pure, Except.pure]
  | cons l rest ih =>
    intro pre h done hd
    have hl := h l List.mem_cons_self
    rw [List.zipIdx_cons, List.foldlM_cons]
    unfold astep
    rw [List.getElem?_eq_getElem hl]
    simp only
    rw [if_pos (by simp [hd])]
    change (Except.ok _ >>= fun s' => List.foldlM (astep avg) s' _) = _
    simp only [bind, Except.bind]
    have := ih (pre ++ [l]) (fun x hx => h x (List.mem_cons_of_mem _ hx)) (done ++ [avg[l]]) (by simp [hd])
    rw [List.length_append, List.length_singleton] at this
    have hset : (done ++ List.replicate (l :: rest).length (0 : Rat)).set pre.length avg[l] =
        (done ++ [avg[l]]) ++ List.replicate rest.length 0 := by
      rw [← hd, List.set_append_right _ _ (le_refl _)]
      simp [List.replicate_succ]
    rw [hset, this]
    simp [List.getElem?_eq_getElem hl]

theorem assign_error (avg : List Rat) (rest : List Nat) : ∀ (pre : List Nat),
    (∃ l ∈ rest, avg.length ≤ l) → ∀ (c : List Rat),
    (rest.zipIdx pre.length).foldlM (astep avg) c =
    (.error .index : Except PyErr (List Rat)) := by
  induction rest with
  | nil => rintro pre ⟨l, hl, _⟩; cases hl
  | cons l rest ih =>
    rintro pre ⟨m, hm, hml⟩ c
    rw [List.zipIdx_cons, List.foldlM_cons]
    by_cases hl : avg.length ≤ l
    · unfold astep
      rw [List.getElem?_eq_none hl]
      rfl
    · rw [not_le] at hl
      have hone : astep avg c (l, pre.length) =
          if pre.length < c.length then .ok (c.set pre.length avg[l]) else .error .index := by
        unfold astep
        rw [List.getElem?_eq_getElem hl]
      rw [hone]
      split
      · simp only [bind, Except.bind]
        have hin : ∃ l ∈ rest, avg.length ≤ l := by
          rcases List.mem_cons.1 hm with rfl | hm
          · omega
          · exact ⟨m, hm, hml⟩
        have := ih (pre ++ [l]) hin (c.set pre.length avg[l])
        rw [List.length_append, List.length_singleton] at this
        exact this
      · rfl

theorem sort_perm (l : List (Nat × Nat)) : (sortByLabel l).Perm l := List.perm_insertionSort _ l

theorem sort_sorted (l : List (Nat × Nat)) : (sortByLabel l).Pairwise (fun a b => a.1 ≤ b.1) := by
  have : IsTrans (Nat × Nat) (fun a b => a.1 ≤ b.1) := ⟨fun a b c h1 h2 => Nat.le_trans h1 h2⟩
  have : Std.Total (fun (a b : Nat × Nat) => a.1 ≤ b.1) := ⟨fun a b => Nat.le_total _ _⟩
  exact List.pairwise_insertionSort _ l

theorem zipIdx_values (data : List Rat) : ∀ (labels : List Nat) (k : Nat) (l : Nat),
    labels.length + k ≤ data.length →
    (((labels.zipIdx k).filter (fun e => e.1 = l)).map (valOf data)) = clusterValues labels (data.drop k) l := by
  intro labels
  induction labels with
  | nil => intro k l _; rfl
  | cons a labels ih =>
    intro k l h
    simp only [List.length_cons] at h
    have hk : k < data.length := by omega
    rw [List.zipIdx_cons]
    unfold clusterValues
    rw [List.drop_eq_getElem_cons hk, List.zip_cons_cons]
    have := ih (k + 1) l (by omega)
    unfold clusterValues at this
    by_cases ha : a = l
    · rw [List.filter_cons_of_pos (by simp [ha]), List.filter_cons_of_pos (by simp [ha]), List.map_cons,
        List.map_cons, this]
      simp [valOf, List.getElem?_eq_getElem hk]
    · rw [List.filter_cons_of_neg (by simp [ha]), List.filter_cons_of_neg (by simp [ha]), this]

theorem zipIdx_fst (labels : List Nat) (k : Nat) : (labels.zipIdx k).map (·.1) = labels := by
  simp

theorem centroids_closed (labels : List Nat) (data : List Rat) (hlen : labels.length = data.length)
    (hc : Contiguous labels) :
    stepCentroids labels data = .ok (labels.map (fun l => meanOf (clusterValues labels data l))) := by
  have hp := sort_perm (enumerateArray labels)
  have hmap : ((sortByLabel (enumerateArray labels)).map (·.1)).Perm labels := by
    have := hp.map (·.1)
    unfold enumerateArray at this ⊢
    rwa [zipIdx_fst] at this
  have hlt : ∀ e ∈ sortByLabel (enumerateArray labels), e.2 < data.length := by
    intro e he
    have he := hp.mem_iff.1 he
    unfold enumerateArray at he
    have := List.snd_lt_of_mem_zipIdx he
    omega
  obtain ⟨st, h1, hcase, hG⟩ := groups_contiguous data (sortByLabel (enumerateArray labels)) [] ([], none)
    (by simpa using sort_sorted _) hlt
    (by
      intro l hl j hj
      exact hmap.mem_iff.2 (hc l (hmap.mem_iff.1 hl) j hj))
    ⟨Or.inl ⟨rfl, rfl, rfl⟩, by simp⟩
  rw [List.nil_append] at hcase hG
  have hbound : ∀ l ∈ labels, l < st.1.length := by
    intro l hl
    obtain ⟨e, he, rfl⟩ := List.mem_map.1 (hmap.mem_iff.2 hl)
    rcases hcase with ⟨_, h, _⟩ | ⟨c, _, h2, h3, _⟩
    · rw [h] at he; cases he
    · have := h3 e he; omega
  have hval : ∀ l ∈ labels, ((averagePerCluster st.1)[l]?).getD 0 = meanOf (clusterValues labels data l) := by
    intro l hl
    unfold averagePerCluster
    rw [List.getElem?_map, hG l (hbound l hl)]
    simp only [Option.map_some, Option.getD_some]
    have hperm : (((sortByLabel (enumerateArray labels)).filter (fun e => e.1 = l)).map (valOf data)).Perm
        (clusterValues labels data l) := by
      rw [← show clusterValues labels (data.drop 0) l = clusterValues labels data l by simp,
        ← zipIdx_values data labels 0 l (by omega)]
      exact (hp.filter _).map _
    unfold meanOf
    rw [hperm.sum_eq, hperm.length_eq]
  unfold stepCentroids valuesByCluster
  simp only [h1, bind, Except.bind, pure, Except.pure]
  unfold assignCentroids enumerateArray
  have := assign_ok (averagePerCluster st.1) labels []
    (by intro l hl; unfold averagePerCluster; simpa using hbound l hl) [] rfl
  simp only [List.nil_append, List.length_nil] at this
  rw [List.length_zipIdx, this]
  congr 1
  exact List.map_congr_left hval

/-! ## C36 -/

/-- **C36.** For labels 0..k-1, all used, every scenario gets the mean of the values of the scenarios
with its label. -/
theorem C36_centroids (labels : List Nat) (data : List Rat) (hlen : labels.length = data.length)
    (hc : Contiguous labels) :
    ∃ c, stepCentroids labels data = .ok c ∧ c.length = labels.length ∧
      ∀ (i l : Nat), labels[i]? = some l →
        c[i]? = some ((clusterValues labels data l).sum / (clusterValues labels data l).length) := by
  refine ⟨_, centroids_closed labels data hlen hc, by simp, ?_⟩
  intro i l hi
  rw [List.getElem?_map, hi]
  rfl

/-- **C36.** With a gap in the labels the call raises IndexError: clusters are never mixed. -/
theorem C36_gaps_raise (labels : List Nat) (data : List Rat) (hlen : labels.length = data.length)
    (hgap : ¬ Contiguous labels) : stepCentroids labels data = .error .index := by
  have hp := sort_perm (enumerateArray labels)
  have hmap : ((sortByLabel (enumerateArray labels)).map (·.1)).Perm labels := by
    have := hp.map (·.1)
    unfold enumerateArray at this ⊢
    rwa [zipIdx_fst] at this
  have hlt : ∀ e ∈ sortByLabel (enumerateArray labels), e.2 < data.length := by
    intro e he
    have he := hp.mem_iff.1 he
    unfold enumerateArray at he
    have := List.snd_lt_of_mem_zipIdx he
    omega
  have herr : ∀ (rest : List (Nat × Nat)) (st : List (List Rat) × Option Nat) (e : PyErr),
      rest.foldlM (vstep data) st = .error e → e = .index := by
    intro rest
    induction rest with
    | nil => intro st e h; cases h
    | cons a rest ih =>
      intro st e h
      rw [List.foldlM_cons] at h
      simp only [bind, Except.bind] at h
      split at h
      · rename_i e' he'
        injection h with h
        subst h
        unfold vstep at he'
        split at he'
        · injection he' with he'; exact he'.symm
        · unfold addToClusters at he'
          split at he'
          · split at he'
            · cases he'
            · injection he' with he'; exact he'.symm
          · cases he'
      · exact ih _ _ h
  unfold stepCentroids valuesByCluster
  cases hst : (sortByLabel (enumerateArray labels)).foldlM (vstep data) ([], none) with
  | error e =>
    simp only [hst, bind, Except.bind]
    rw [herr _ _ _ hst]
  | ok st =>
    simp only [hst, bind, Except.bind, pure, Except.pure]
    have hcount := groups_count data (sortByLabel (enumerateArray labels)) [] ([], none) st
      (by simpa using sort_sorted _) (by simp) (by intro l; simp) hst
    rw [List.nil_append] at hcount
    have hfin : ((sortByLabel (enumerateArray labels)).map (·.1)).toFinset = labels.toFinset :=
      List.toFinset_eq_of_perm _ _ hmap
    rw [hfin] at hcount
    have hbig : ∃ l ∈ labels, st.1.length ≤ l := by
      by_contra hno
      push Not at hno
      apply hgap
      have hsub : labels.toFinset ⊆ Finset.range st.1.length := by
        intro l hl
        rw [Finset.mem_range]
        exact hno l (List.mem_toFinset.1 hl)
      have heq := Finset.eq_of_subset_of_card_le hsub (by rw [Finset.card_range, hcount])
      intro l hl j hj
      have : j ∈ labels.toFinset := by
        rw [heq, Finset.mem_range]
        exact Nat.lt_of_le_of_lt hj (hno l hl)
      exact List.mem_toFinset.1 this
    unfold assignCentroids enumerateArray
    exact assign_error (averagePerCluster st.1) labels []
      (by unfold averagePerCluster; simpa using hbig) _

/-! ## C37 -/

theorem sum_fiber (Z : List (Nat × Rat)) (f : Nat × Rat → Rat) (s : Finset Nat) (h : ∀ p ∈ Z, p.1 ∈ s) :
    (Z.map f).sum = s.sum (fun l => ((Z.filter (fun p => p.1 = l)).map f).sum) := by
  induction Z with
  | nil => simp
  | cons p Z ih =>
    rw [List.map_cons, List.sum_cons, ih (fun q hq => h q (List.mem_cons_of_mem _ hq))]
    have : ∀ l, (((p :: Z).filter (fun p => p.1 = l)).map f).sum =
        (if p.1 = l then f p else 0) + ((Z.filter (fun p => p.1 = l)).map f).sum := by
      intro l
      by_cases hl : p.1 = l <;> simp [hl]
    rw [Finset.sum_congr rfl (fun l _ => this l), Finset.sum_add_distrib,
      Finset.sum_ite_eq s p.1 (fun _ => f p), if_pos (h p List.mem_cons_self)]

/-- **C37.** The sum of the centroids over the scenarios is the sum of the values. -/
theorem C37_sum_preserved (labels : List Nat) (data c : List Rat) (hlen : labels.length = data.length)
    (h : stepCentroids labels data = .ok c) : c.length = data.length ∧ c.sum = data.sum := by
  have hc : Contiguous labels := by
    by_contra hn
    rw [C36_gaps_raise labels data hlen hn] at h
    cases h
  rw [centroids_closed labels data hlen hc] at h
  injection h with h
  subst h
  refine ⟨by simp [hlen], ?_⟩
  have hz1 : (labels.zip data).map (·.1) = labels := List.map_fst_zip (by omega)
  have hz2 : (labels.zip data).map (·.2) = data := List.map_snd_zip (by omega)
  have hmem : ∀ p ∈ labels.zip data, p.1 ∈ labels.toFinset := by
    intro p hp
    rw [List.mem_toFinset]
    exact (List.of_mem_zip hp).1
  have e1 : labels.map (fun l => meanOf (clusterValues labels data l)) =
      (labels.zip data).map (fun p => meanOf (clusterValues labels data p.1)) := by
    have : ∀ (f : Nat → Rat), labels.map f = (labels.zip data).map (fun p => f p.1) := by
      intro f
      conv_lhs => rw [← hz1]
      rw [List.map_map]
      rfl
    exact this _
  rw [e1, sum_fiber _ _ _ hmem]
  conv_rhs => rw [← hz2, sum_fiber _ (fun p => p.2) _ hmem]
  apply Finset.sum_congr rfl
  intro l _
  have e2 : ((labels.zip data).filter (fun p => p.1 = l)).map (fun p => meanOf (clusterValues labels data p.1)) =
      ((labels.zip data).filter (fun p => p.1 = l)).map (fun _ => meanOf (clusterValues labels data l)) := by
    apply List.map_congr_left
    intro p hp
    have := List.of_mem_filter hp
    simp only [decide_eq_true_eq] at this
    rw [this]
  rw [e2, List.map_const', List.sum_replicate, nsmul_eq_mul]
  unfold meanOf
  have hl : ((labels.zip data).filter (fun p => p.1 = l)).length = (clusterValues labels data l).length := by
    simp [clusterValues]
  rw [hl]
  by_cases h0 : (clusterValues labels data l).length = 0
  · have : clusterValues labels data l = [] := List.length_eq_zero_iff.1 h0
    have h' : ((labels.zip data).filter (fun p => p.1 = l)).map (·.2) = [] := this
    rw [h0, h']
    simp
  · have : ((clusterValues labels data l).length : Rat) ≠ 0 := by exact_mod_cast h0
    rw [mul_div_cancel₀ _ this]
    rfl

theorem mean_bounds (l : List Rat) (hne : l ≠ []) (lo hi : Rat) (h : ∀ v ∈ l, lo ≤ v ∧ v ≤ hi) :
    lo ≤ l.sum / l.length ∧ l.sum / l.length ≤ hi := by
  have hpos : (0 : Rat) < l.length := by
    have := List.length_pos_iff.2 hne
    exact_mod_cast this
  have h1 : (l.length : Rat) * lo ≤ l.sum := by
    have := List.card_nsmul_le_sum l lo (fun v hv => (h v hv).1)
    rwa [nsmul_eq_mul] at this
  have h2 : l.sum ≤ (l.length : Rat) * hi := by
    have := List.sum_le_card_nsmul l hi (fun v hv => (h v hv).2)
    rwa [nsmul_eq_mul] at this
  constructor
  · rw [le_div_iff₀ hpos]; linarith
  · rw [div_le_iff₀ hpos]; linarith

/-- **C37.** Each centroid lies between any bounds on the values of its cluster. -/
theorem C37_between (labels : List Nat) (data c : List Rat) (hlen : labels.length = data.length)
    (h : stepCentroids labels data = .ok c) (i l : Nat) (x lo hi : Rat) (hi' : labels[i]? = some l)
    (hx : c[i]? = some x) (hb : ∀ v ∈ clusterValues labels data l, lo ≤ v ∧ v ≤ hi) : lo ≤ x ∧ x ≤ hi := by
  have hc : Contiguous labels := by
    by_contra hn
    rw [C36_gaps_raise labels data hlen hn] at h
    cases h
  obtain ⟨c', h1, _, h3⟩ := C36_centroids labels data hlen hc
  rw [h] at h1
  injection h1 with h1
  subst h1
  have := h3 i l hi'
  rw [hx] at this
  injection this with this
  rw [this]
  apply mean_bounds _ _ lo hi hb
  intro hnil
  have hi2 : i < labels.length := by
    by_contra hh
    rw [List.getElem?_eq_none (by omega)] at hi'
    cases hi'
  have hmem : (l, data[i]'(by omega)) ∈ labels.zip data := by
    rw [List.mem_iff_getElem?]
    refine ⟨i, ?_⟩
    rw [List.getElem?_zip_eq_some]
    exact ⟨hi', List.getElem?_eq_getElem _⟩
  have : data[i]'(by omega) ∈ clusterValues labels data l := by
    unfold clusterValues
    exact List.mem_map.2 ⟨_, List.mem_filter.2 ⟨hmem, by simp⟩, rfl⟩
  rw [hnil] at this
  cases this

/-! ## C65: from clusters to nodes -/

theorem mapM_getElem {α β : Type} (f : α → Except PyErr β) (l : List α) : ∀ (r : List β), l.mapM f = .ok r →
    r.length = l.length ∧ ∀ (t : Nat) (a : α), l[t]? = some a → ∃ b, r[t]? = some b ∧ f a = .ok b := by
  induction l with
  | nil =>
    intro r h
    injection h with h
    subst h
    exact ⟨rfl, fun t a h => by simp at h⟩
  | cons x l ih =>
    intro r h
    rw [List.mapM_cons] at h
    simp only [bind, Except.bind] at h
    split at h
    · cases h
    · rename_i b hb
      split at h
      · cases h
      · rename_i bs hbs
        injection h with h
        subst h
        obtain ⟨h1, h2⟩ := ih bs hbs
        refine ⟨by simp [h1], ?_⟩
        intro t a ht
        cases t with
        | zero =>
          simp only [List.getElem?_cons_zero, Option.some.injEq] at ht
          subst ht
          exact ⟨b, by simp, hb⟩
        | succ t =>
          simp only [List.getElem?_cons_succ] at ht ⊢
          exact h2 t a ht

/-- **C65.** In the graph built from the clustered profile, two scenarios are in the same node of a
year exactly if the means of their clusters of that year are equal. -/
theorem C65_share_node_iff (labels : List (List Nat)) (data rows : List (List Rat))
    (h : profileCentroids labels data = .ok rows) (t i j a b : Nat) (ls : List Nat) (ds : List Rat)
    (hls : labels[t]? = some ls) (hds : data[t]? = some ds) (hlen : ls.length = ds.length)
    (hi : ls[i]? = some a) (hj : ls[j]? = some b) :
    (∃ c ∈ graphNodes rows, c.level = t ∧ i ∈ c.scenarios ∧ j ∈ c.scenarios) ↔
      (clusterValues ls ds a).sum / (clusterValues ls ds a).length =
      (clusterValues ls ds b).sum / (clusterValues ls ds b).length := by
  obtain ⟨_, hm⟩ := mapM_getElem _ _ rows h
  obtain ⟨c, hc1, hc2⟩ := hm t (ls, ds) (by rw [List.getElem?_zip_eq_some]; exact ⟨hls, hds⟩)
  have hcont : Contiguous ls := by
    by_contra hn
    have := C36_gaps_raise ls ds hlen hn
    simp only at hc2
    rw [this] at hc2
    cases hc2
  obtain ⟨c', h1, _, h3⟩ := C36_centroids ls ds hlen hcont
  have heq : c = c' := by
    simp only at hc2
    rw [hc2] at h1
    injection h1
  subst heq
  exact C32_share_iff_equal rows t i j c _ _ hc1 (h3 i a hi) (h3 j b hj)

/-- **C65.** Scenarios put into the same cluster share the node of the year. -/
theorem C65_same_cluster_same_node (labels : List (List Nat)) (data rows : List (List Rat))
    (h : profileCentroids labels data = .ok rows) (t i j a : Nat) (ls : List Nat) (ds : List Rat)
    (hls : labels[t]? = some ls) (hds : data[t]? = some ds) (hlen : ls.length = ds.length)
    (hi : ls[i]? = some a) (hj : ls[j]? = some a) :
    ∃ c ∈ graphNodes rows, c.level = t ∧ i ∈ c.scenarios ∧ j ∈ c.scenarios :=
  (C65_share_node_iff labels data rows h t i j a a ls ds hls hds hlen hi hj).2 rfl

/-- **C65, the converse fails:** different clusters with equal means are merged into one node. -/
theorem C65_equal_means_merge :
    ∃ rows, profileCentroids [[0, 1, 0]] [[1, 2, 3]] = .ok rows ∧
      ∃ c ∈ graphNodes rows, 0 ∈ c.scenarios ∧ 1 ∈ c.scenarios := by
  refine ⟨[[2, 2, 2]], by decide +kernel, ⟨[0, 1, 2], 2, 0⟩, by decide +kernel, by simp, by simp⟩

/-! ## Instances -/

example : ∃ rows, profileCentroids [[0, 0, 0], [1, 0, 1]] [[1, 1, 1], [5, 3, 7]] = .ok rows ∧
    rows = [[1, 1, 1], [6, 3, 6]] := ⟨_, rfl, by decide +kernel⟩

example : Contiguous [1, 0, 1, 2] := by
  intro l hl j hj
  simp only [List.mem_cons, List.not_mem_nil, or_false] at hl ⊢
  omega
example : stepCentroids [1, 0, 1, 2] [4, 1, 8, 3] = .ok [6, 1, 6, 3] := by decide +kernel
example : ¬ Contiguous [0, 2] := by
  intro h
  have := h 2 (by simp) 1 (by omega)
  simp at this
example : stepCentroids [0, 2] [4, 1] = .error .index := by decide +kernel

end Pyensys
