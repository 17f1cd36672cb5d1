import Verif.Model.Container

namespace Pyensys
variable {K V : Type} [DecidableEq K]

/-! ### association lists -/

omit [DecidableEq K] in
theorem find?_append_cons_self (p : K × V → Bool) (a b : List (K × V)) (e : K × V)
    (ha : ∀ x ∈ a, p x = false) (he : p e = true) : (a ++ e :: b).find? p = some e := by
  induction a with
  | nil => simp [he]
  | cons x a ih =>
    have hx := ha x (by simp)
    simp only [List.cons_append, List.find?_cons, hx]
    exact ih (fun y hy => ha y (by simp [hy]))

theorem listGet?_eq_some_iff (l : List (K × V)) (k : K) (v : V) :
    listGet? l k = some v ↔ ∃ a b, l = a ++ (k, v) :: b ∧ ∀ e ∈ a, e.1 ≠ k := by
  unfold listGet?
  constructor
  · intro h
    induction l with
    | nil => simp at h
    | cons e l ih =>
      by_cases hk : e.1 = k
      · simp [hk] at h
        exact ⟨[], l, by cases e; simp_all, by simp⟩
      · simp only [List.find?_cons, hk, decide_false] at h
        obtain ⟨a, b, rfl, hab⟩ := ih h
        exact ⟨e :: a, b, rfl, by simpa [hk] using hab⟩
  · rintro ⟨a, b, rfl, hab⟩
    rw [find?_append_cons_self _ _ _ _ (by simpa using hab) (by simp)]; rfl

theorem listGet?_eq_none_iff (l : List (K × V)) (k : K) :
    listGet? l k = none ↔ ∀ e ∈ l, e.1 ≠ k := by
  unfold listGet?; simp

theorem dictGet?_eq_listGet? (d : List (K × V)) (k : K) : dictGet? d k = listGet? d k := rfl

theorem dictGet?_mem {d : List (K × V)} {k : K} {v : V} (h : dictGet? d k = some v) :
    (k, v) ∈ d := by
  obtain ⟨a, b, rfl, -⟩ := (listGet?_eq_some_iff d k v).1 h
  simp

/-- keys are pairwise distinct -/
def KeysNodup (d : List (K × V)) : Prop := (d.map (·.1)).Nodup

theorem dictGet?_of_mem {d : List (K × V)} (hd : KeysNodup d) {k : K} {v : V} (h : (k, v) ∈ d) :
    dictGet? d k = some v := by
  rw [dictGet?_eq_listGet?, listGet?_eq_some_iff]
  obtain ⟨a, b, rfl⟩ := List.append_of_mem h
  refine ⟨a, b, rfl, ?_⟩
  intro e he hk
  simp only [KeysNodup, List.map_append, List.map_cons, List.nodup_append, List.mem_map] at hd
  exact hd.2.2 _ ⟨e, he, rfl⟩ k (by simp) hk

theorem mem_iff_dictGet? {d : List (K × V)} (hd : KeysNodup d) (k : K) (v : V) :
    (k, v) ∈ d ↔ dictGet? d k = some v := ⟨dictGet?_of_mem hd, dictGet?_mem⟩

theorem dictGet?_isSome_iff (d : List (K × V)) (k : K) :
    (dictGet? d k).isSome ↔ k ∈ d.map (·.1) := by
  constructor
  · intro h
    obtain ⟨v, hv⟩ := Option.isSome_iff_exists.1 h
    exact List.mem_map.2 ⟨_, dictGet?_mem hv, rfl⟩
  · intro h
    obtain ⟨e, he, rfl⟩ := List.mem_map.1 h
    cases hg : dictGet? d e.1 with
    | some v => rfl
    | none => exact absurd rfl ((listGet?_eq_none_iff d e.1).1 hg e he)

theorem map_fst_setMap (d : List (K × V)) (k : K) (v : V) :
    (d.map (fun e => if e.1 = k then (e.1, v) else e)).map (·.1) = d.map (·.1) := by
  simp only [List.map_map]
  apply List.map_congr_left
  intro e _
  simp only [Function.comp]
  split <;> rfl

theorem dictGet?_setMap (d : List (K × V)) (k k' : K) (v : V) :
    dictGet? (d.map (fun e => if e.1 = k then (e.1, v) else e)) k' =
      if k' = k then (dictGet? d k).map (fun _ => v) else dictGet? d k' := by
  induction d with
  | nil => simp [dictGet?]
  | cons e d ih =>
    have hc : ∀ (x : K × V) (l : List (K × V)) (q : K), dictGet? (x :: l) q =
        if x.1 = q then some x.2 else dictGet? l q := by
      intro x l q; unfold dictGet?; by_cases h : x.1 = q <;> simp [h]
    rw [List.map_cons, hc, ih, hc, hc]
    by_cases h1 : e.1 = k
    · by_cases h2 : k' = k
      · subst h2; simp [h1]
      · simp only [h1, if_true, h2, if_false]
        rw [if_neg (fun h => h2 h.symm), if_neg (fun h => h2 h.symm)]
    · by_cases h2 : k' = k
      · subst h2; simp [h1]
      · simp only [h1, if_false, h2]

theorem dictGet?_append (a b : List (K × V)) (k : K) :
    dictGet? (a ++ b) k = (dictGet? a k).or (dictGet? b k) := by
  unfold dictGet?
  rw [List.find?_append]
  cases List.find? (fun e => decide (e.1 = k)) a <;> simp

theorem dictGet?_set (d : List (K × V)) (k k' : K) (v : V) :
    dictGet? (dictSet d k v) k' = if k' = k then some v else dictGet? d k' := by
  unfold dictSet
  by_cases h : d.any (fun e => e.1 = k) = true
  · rw [if_pos h, dictGet?_setMap]
    have : (dictGet? d k).isSome := by
      rw [dictGet?_isSome_iff]; simpa using h
    obtain ⟨w, hw⟩ := Option.isSome_iff_exists.1 this
    simp [hw]
  · rw [if_neg h, dictGet?_append]
    have hn : dictGet? d k = none := by
      rw [dictGet?_eq_listGet?, listGet?_eq_none_iff]
      intro e he hk; exact h (List.any_eq_true.2 ⟨e, he, by simpa using hk⟩)
    by_cases h2 : k' = k
    · subst h2; rw [hn]; simp [dictGet?]
    · have : dictGet? [(k, v)] k' = none := by simp [dictGet?, Ne.symm h2]
      simp [h2, this]

theorem keysNodup_set {d : List (K × V)} (hd : KeysNodup d) (k : K) (v : V) :
    KeysNodup (dictSet d k v) := by
  unfold dictSet KeysNodup at *
  by_cases h : d.any (fun e => e.1 = k) = true
  · rw [if_pos h, map_fst_setMap]; exact hd
  · rw [if_neg h, List.map_append, List.nodup_append]
    refine ⟨hd, by simp, ?_⟩
    intro a ha b hb
    simp only [List.map_cons, List.map_nil, List.mem_singleton] at hb
    subst hb
    intro hab; subst hab
    apply h
    simpa using ha

theorem dictGet?_erase (d : List (K × V)) (k k' : K) :
    dictGet? (dictErase d k) k' = if k' = k then none else dictGet? d k' := by
  unfold dictErase
  by_cases h : k' = k
  · subst h
    rw [if_pos rfl, dictGet?_eq_listGet?, listGet?_eq_none_iff]
    intro e he; simpa using (List.mem_filter.1 he).2
  · rw [if_neg h]
    unfold dictGet?
    rw [List.find?_filter]
    congr 2
    funext e
    by_cases h2 : e.1 = k' <;> simp [h2, h]

theorem keysNodup_erase {d : List (K × V)} (hd : KeysNodup d) (k : K) :
    KeysNodup (dictErase d k) :=
  (List.filter_sublist.map _).nodup hd

theorem keysNodup_update {a : List (K × V)} (ha : KeysNodup a) (b : List (K × V)) :
    KeysNodup (dictUpdate a b) := by
  induction b generalizing a with
  | nil => exact ha
  | cons e b ih => exact ih (keysNodup_set ha _ _)

/-! ### removing the last occurrence -/

omit [DecidableEq K] in
theorem eraseIdx_append_cons (a b : List (K × V)) (e : K × V) :
    (a ++ e :: b).eraseIdx a.length = a ++ b := by
  rw [List.eraseIdx_append_of_length_le (Nat.le_refl _)]; simp

theorem lastPos_none_of_not_mem (k : K) (l : List (K × V)) (i : Nat) (acc : Option Nat)
    (h : ∀ e ∈ l, e.1 ≠ k) : lastPos k l i acc = acc := by
  induction l generalizing i acc with
  | nil => rfl
  | cons e l ih =>
    have := h e (by simp)
    simp only [lastPos, this, if_false]
    exact ih _ _ (fun x hx => h x (by simp [hx]))

theorem lastPos_append_cons (k : K) (a b : List (K × V)) (v : V) (i : Nat) (acc : Option Nat)
    (h : ∀ e ∈ b, e.1 ≠ k) : lastPos k (a ++ (k, v) :: b) i acc = some (i + a.length) := by
  induction a generalizing i acc with
  | nil => simp [lastPos, lastPos_none_of_not_mem k b _ _ h]
  | cons e a ih =>
    simp only [List.cons_append, lastPos]
    rw [ih]; simp; omega

theorem exists_last_split (k : K) (l : List (K × V)) (h : ∃ e ∈ l, e.1 = k) :
    ∃ a v b, l = a ++ (k, v) :: b ∧ ∀ e ∈ b, e.1 ≠ k := by
  induction l with
  | nil => simp at h
  | cons e l ih =>
    by_cases hl : ∃ e ∈ l, e.1 = k
    · obtain ⟨a, v, b, rfl, hb⟩ := ih hl
      exact ⟨e :: a, v, b, rfl, hb⟩
    · obtain ⟨x, hx, hxk⟩ := h
      rcases List.mem_cons.1 hx with rfl | hx'
      · refine ⟨[], x.2, l, ?_, fun y hy hyk => hl ⟨y, hy, hyk⟩⟩
        cases x; simp_all
      · exact absurd ⟨x, hx', hxk⟩ hl

theorem listPop_hit (k : K) (a b : List (K × V)) (v : V) (h : ∀ e ∈ b, e.1 ≠ k) :
    listPop (a ++ (k, v) :: b) k = .ok (v, a ++ b) := by
  unfold listPop
  rw [lastPos_append_cons k a b v 0 none h]
  simp only [Nat.zero_add]
  rw [eraseIdx_append_cons]
  simp

theorem listPop_miss (k : K) (l : List (K × V)) (h : ∀ e ∈ l, e.1 ≠ k) :
    listPop l k = .error .key := by
  unfold listPop; rw [lastPos_none_of_not_mem k l 0 none h]

@[simp] theorem listPop_append_self (l : List (K × V)) (k : K) (v : V) :
    listPop (l ++ [(k, v)]) k = .ok (v, l) := by
  have := listPop_hit k l [] v (by simp)
  simpa using this

end Pyensys
