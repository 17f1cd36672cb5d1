import Verif.Model.CaseRead
import Verif.Props.Devices
import Verif.Props.Dispatch
import Verif.Props.AttestOptions
import Verif.Props.PlanData

/-! # C232, C233: the network and the generators of a case file -/

namespace Pyensys

/-! ## specification -/

/-- the section of the file gives the value `v` for element `x` in the column `k` -/
def CrGiven (s : CrSec) (k : String) (x : Nat) (v : CrVal) : Prop := ∃ l, s.lookup k = some l ∧ l[x]? = some v

/-- the file has no such column -/
def CrAbsent (s : CrSec) (k : String) : Prop := s.lookup k = none

/-! ## lemmas -/

theorem cr_key_iff {α : Type} (x : Option α) (v : α) : crKey x = .ok v ↔ x = some v := by
  cases x <;> simp [crKey]

theorem cr_cell_iff (s : CrSec) (k : String) (x : Nat) (v : CrVal) : crCell s k x = .ok v ↔ CrGiven s k x v := by
  unfold crCell CrGiven
  cases h : s.lookup k with
  | none => simp [crKey, Except.bind]
  | some l =>
    simp only [crKey, Except.bind, Option.some.injEq, exists_eq_left']
    exact pyGet_nat_iff l x v

theorem cr_req_iff (s : CrSec) (x : Nat) (o o' : CrObj) (kn : String × String) :
    crReq s x o kn = .ok o' ↔ ∃ v, CrGiven s kn.2 x v ∧ o' = crPut o kn.1 (some v) := by
  unfold crReq
  cases h : crCell s kn.2 x with
  | error e =>
    constructor
    · intro h'; cases h'
    · rintro ⟨v, h1, -⟩
      rw [← cr_cell_iff, h] at h1; cases h1
  | ok v =>
    have hv := (cr_cell_iff s kn.2 x v).mp h
    constructor
    · intro h'
      have : crPut o kn.1 (some v) = o' := by injection h'
      exact ⟨v, hv, this.symm⟩
    · rintro ⟨w, h1, h2⟩
      have h3 := (cr_cell_iff s kn.2 x w).mpr h1
      rw [h] at h3
      injection h3 with h3
      subst h3
      rw [h2]
      rfl

theorem cr_put_same (o : CrObj) (k : String) (v : Option CrVal) : crPut o k v k = v := by simp [crPut]
theorem cr_put_other (o : CrObj) (k k' : String) (v : Option CrVal) (h : k' ≠ k) : crPut o k v k' = o k' := by simp [crPut, h]

theorem cr_req_fold (s : CrSec) (x : Nat) : ∀ (L : List (String × String)) (o o' : CrObj), L.foldlM (crReq s x) o = .ok o' →
    ∀ k, (L.reverse.lookup k = none → o' k = o k) ∧ (∀ n, L.reverse.lookup k = some n → ∃ v, CrGiven s n x v ∧ o' k = some v)
  | [], o, o', h, k => by
    have : o = o' := by injection h
    subst this
    exact ⟨fun _ => rfl, fun n h' => by cases h'⟩
  | kn :: L, o, o', h, k => by
    rw [List.foldlM_cons, except_bind_ok] at h
    obtain ⟨o1, h1, h2⟩ := h
    obtain ⟨v, hv, rfl⟩ := (cr_req_iff _ _ _ _ _).mp h1
    obtain ⟨i1, i2⟩ := cr_req_fold s x L _ o' h2 k
    rw [List.reverse_cons, List.lookup_append]
    cases hl : L.reverse.lookup k with
    | some n' =>
      refine ⟨fun h' => by simp at h', fun n h' => ?_⟩
      simp only [Option.some_or, Option.some.injEq] at h'
      subst h'
      exact i2 n' hl
    | none =>
      simp only [Option.none_or]
      have e := i1 hl
      by_cases hk : k = kn.1
      · subst hk
        rw [List.lookup_cons, beq_self_eq_true]
        refine ⟨fun h' => (by cases h'), fun n h' => ?_⟩
        have : kn.2 = n := by simpa using h'
        subst this
        exact ⟨v, hv, by rw [e, cr_put_same]⟩
      · have hb : (k == kn.1) = false := by simpa using hk
        rw [List.lookup_cons, hb]
        refine ⟨fun _ => by rw [e, cr_put_other _ _ _ _ hk], fun n h' => by simp at h'⟩

theorem cr_req_fold_total (s : CrSec) (x : Nat) : ∀ (L : List (String × String)) (o : CrObj), (∀ kn ∈ L, ∃ v, CrGiven s kn.2 x v) → ∃ o', L.foldlM (crReq s x) o = .ok o'
  | [], o, _ => ⟨o, rfl⟩
  | kn :: L, o, h => by
    obtain ⟨v, hv⟩ := h kn (by simp)
    obtain ⟨o', h'⟩ := cr_req_fold_total s x L (crPut o kn.1 (some v)) (fun kn' hm => h kn' (by simp [hm]))
    exact ⟨o', by rw [List.foldlM_cons, except_bind_ok]; exact ⟨_, (cr_req_iff _ _ _ _ _).mpr ⟨v, hv, rfl⟩, h'⟩⟩

theorem cr_opt_ok (s : CrSec) (x : Nat) (o o' : CrObj) (k : String) (h : crOpt s x o k = .ok o') :
    (∀ k', k' ≠ k → o' k' = o k') ∧ (CrAbsent s k → o' k = o k) ∧ (¬ CrAbsent s k → ∃ v, CrGiven s k x v ∧ o' k = some v) := by
  unfold crOpt at h
  unfold CrAbsent
  by_cases hs : (s.lookup k).isSome = true
  · rw [if_pos hs] at h
    obtain ⟨v, hv, rfl⟩ := (cr_req_iff _ _ _ _ _).mp h
    refine ⟨fun k' hk => cr_put_other _ _ _ _ hk, fun h' => ?_, fun _ => ⟨v, hv, cr_put_same _ _ _⟩⟩
    rw [h'] at hs; cases hs
  · rw [if_neg hs] at h
    have : o = o' := by injection h
    subst this
    refine ⟨fun _ _ => rfl, fun _ => rfl, fun h' => ?_⟩
    cases hl : s.lookup k with
    | none => exact absurd hl h'
    | some l => rw [hl] at hs; exact absurd rfl hs

theorem cr_opt_total (s : CrSec) (x : Nat) (o : CrObj) (k : String) (h : CrAbsent s k ∨ ∃ v, CrGiven s k x v) : ∃ o', crOpt s x o k = .ok o' := by
  unfold crOpt
  by_cases hs : (s.lookup k).isSome = true
  · rw [if_pos hs]
    rcases h with h | ⟨v, hv⟩
    · unfold CrAbsent at h; rw [h] at hs; cases hs
    · exact ⟨_, (cr_req_iff _ _ _ _ _).mpr ⟨v, hv, rfl⟩⟩
  · rw [if_neg hs]; exact ⟨o, rfl⟩

theorem cr_opt_fold (s : CrSec) (x : Nat) : ∀ (L : List String) (_ : L.Nodup) (o o' : CrObj), L.foldlM (crOpt s x) o = .ok o' →
    ∀ k, (k ∉ L → o' k = o k) ∧ (k ∈ L → (CrAbsent s k → o' k = o k) ∧ (¬ CrAbsent s k → ∃ v, CrGiven s k x v ∧ o' k = some v))
  | [], _, o, o', h, k => by
    have : o = o' := by injection h
    subst this
    exact ⟨fun _ => rfl, fun h' => by cases h'⟩
  | a :: L, hnd, o, o', h, k => by
    rw [List.foldlM_cons, except_bind_ok] at h
    obtain ⟨o1, h1, h2⟩ := h
    rw [List.nodup_cons] at hnd
    obtain ⟨p1, p2, p3⟩ := cr_opt_ok _ _ _ _ _ h1
    obtain ⟨i1, i2⟩ := cr_opt_fold s x L hnd.2 _ o' h2 k
    by_cases hk : k = a
    · subst hk
      refine ⟨fun h' => absurd (by simp) h', fun _ => ?_⟩
      have e := i1 hnd.1
      rw [e]
      exact ⟨p2, p3⟩
    · constructor
      · intro hm
        rw [i1 (fun h' => hm (by simp [h'])), p1 k hk]
      · intro hm
        have hm' : k ∈ L := by
          rcases List.mem_cons.mp hm with h' | h'
          · exact absurd h' hk
          · exact h'
        obtain ⟨q1, q2⟩ := i2 hm'
        refine ⟨fun ha => by rw [q1 ha, p1 k hk], q2⟩

theorem cr_opt_fold_total (s : CrSec) (x : Nat) : ∀ (L : List String) (o : CrObj), (∀ k ∈ L, CrAbsent s k ∨ ∃ v, CrGiven s k x v) → ∃ o', L.foldlM (crOpt s x) o = .ok o'
  | [], o, _ => ⟨o, rfl⟩
  | a :: L, o, h => by
    obtain ⟨o1, h1⟩ := cr_opt_total s x o a (h a (by simp))
    obtain ⟨o', h'⟩ := cr_opt_fold_total s x L o1 (fun k hm => h k (by simp [hm]))
    exact ⟨o', by rw [List.foldlM_cons, except_bind_ok]; exact ⟨_, h1, h'⟩⟩

theorem cr_loss_ok (s : CrSec) (x : Nat) (o o' : CrObj) (h : crLoss s x o = .ok o') :
    (∀ k, k ≠ "Loss_Fix" → o' k = o k) ∧ (CrAbsent s "Loss_Fix" → o' "Loss_Fix" = some (.num 0)) ∧ (¬ CrAbsent s "Loss_Fix" → ∃ v, CrGiven s "Loss_Fix" x v ∧ o' "Loss_Fix" = some v) := by
  unfold crLoss at h
  unfold CrAbsent
  by_cases hs : (s.lookup "Loss_Fix").isSome = true
  · rw [if_pos hs] at h
    obtain ⟨v, hv, rfl⟩ := (cr_req_iff _ _ _ _ _).mp h
    refine ⟨fun k hk => cr_put_other _ _ _ _ hk, fun h' => ?_, fun _ => ⟨v, hv, cr_put_same _ _ _⟩⟩
    rw [h'] at hs; cases hs
  · rw [if_neg hs] at h
    have : crPut o "Loss_Fix" (some (.num 0)) = o' := by injection h
    subst this
    refine ⟨fun k hk => cr_put_other _ _ _ _ hk, fun _ => cr_put_same _ _ _, fun h' => ?_⟩
    cases hl : s.lookup "Loss_Fix" with
    | none => exact absurd hl h'
    | some l => rw [hl] at hs; exact absurd rfl hs

theorem cr_loss_total (s : CrSec) (x : Nat) (o : CrObj) (h : CrAbsent s "Loss_Fix" ∨ ∃ v, CrGiven s "Loss_Fix" x v) : ∃ o', crLoss s x o = .ok o' := by
  unfold crLoss
  by_cases hs : (s.lookup "Loss_Fix").isSome = true
  · rw [if_pos hs]
    rcases h with h | ⟨v, hv⟩
    · unfold CrAbsent at h; rw [h] at hs; cases hs
    · exact ⟨_, (cr_req_iff _ _ _ _ _).mpr ⟨v, hv, rfl⟩⟩
  · rw [if_neg hs]; exact ⟨_, rfl⟩

theorem cr_name_ok (s : CrSec) (x : Nat) (o o' : CrObj) (h : crName s x o = .ok o') :
    (∀ k, k ≠ "Name" → o' k = o k) ∧ (∀ v, CrGiven s "BUS_NAME" x v → o' "Name" = some v) := by
  unfold crName at h
  cases hl : s.lookup "BUS_NAME" with
  | none =>
    rw [hl] at h
    have : o = o' := by injection h
    subst this
    refine ⟨fun _ _ => rfl, fun v hv => ?_⟩
    obtain ⟨l, h1, -⟩ := hv
    rw [hl] at h1; cases h1
  | some l =>
    rw [hl] at h
    by_cases he : l = []
    · simp only [if_pos he] at h
      have : o = o' := by injection h
      subst this
      refine ⟨fun _ _ => rfl, fun v hv => ?_⟩
      obtain ⟨l', h1, h2⟩ := hv
      rw [hl] at h1
      have : l = l' := by injection h1
      rw [← this, he] at h2
      cases h2
    · simp only [if_neg he] at h
      obtain ⟨v, hv, rfl⟩ := (cr_req_iff _ _ _ _ _).mp h
      refine ⟨fun k hk => cr_put_other _ _ _ _ hk, fun w hw => ?_⟩
      obtain ⟨l1, a1, a2⟩ := hv
      obtain ⟨l2, b1, b2⟩ := hw
      have a1' : s.lookup "BUS_NAME" = some l1 := a1
      rw [b1] at a1'
      have : l2 = l1 := by injection a1'
      subst this
      rw [a2] at b2
      rw [← b2]
      exact cr_put_same _ _ _

theorem cr_name_total (s : CrSec) (x : Nat) (o : CrObj) (h : ∀ l, s.lookup "BUS_NAME" = some l → l = [] ∨ x < l.length) : ∃ o', crName s x o = .ok o' := by
  unfold crName
  cases hl : s.lookup "BUS_NAME" with
  | none => exact ⟨o, rfl⟩
  | some l =>
    by_cases he : l = []
    · simp only [if_pos he]; exact ⟨o, rfl⟩
    · simp only [if_neg he]
      rcases h l hl with h | h
      · exact absurd h he
      · exact ⟨_, (cr_req_iff _ _ _ _ _).mpr ⟨l[x], ⟨l, hl, List.getElem?_eq_getElem h⟩, rfl⟩⟩

theorem cr_place_ok (s : CrSec) (x : Nat) (o o' : CrObj) (h : crPlace s x o = .ok o') :
    (∀ k, k ≠ "BUS_X" → k ≠ "BUS_Y" → o' k = o k) ∧ (¬ CrAbsent s "BUS_X" → ∀ k ∈ ["BUS_X", "BUS_Y"], ∃ v, CrGiven s k x v ∧ o' k = some v) ∧
      (CrAbsent s "BUS_X" → o' = o) := by
  unfold crPlace at h
  unfold CrAbsent
  by_cases hs : (s.lookup "BUS_X").isSome = true
  · rw [if_pos hs] at h
    have hf := cr_req_fold s x _ _ _ h
    refine ⟨fun k h1 h2 => (hf k).1 ?_, fun _ k hk => ?_, fun h' => ?_⟩
    · show List.lookup k [("BUS_Y", "BUS_Y"), ("BUS_X", "BUS_X")] = none
      simp [List.lookup, beq_eq_false_iff_ne.mpr h1, beq_eq_false_iff_ne.mpr h2]
    · rcases List.mem_cons.mp hk with rfl | hk
      · exact (hf "BUS_X").2 "BUS_X" rfl
      · rw [List.mem_singleton] at hk
        subst hk
        exact (hf "BUS_Y").2 "BUS_Y" rfl
    · rw [h'] at hs; cases hs
  · rw [if_neg hs] at h
    have : o = o' := by injection h
    subst this
    refine ⟨fun _ _ _ => rfl, fun h' => ?_, fun _ => rfl⟩
    cases hl : s.lookup "BUS_X" with
    | none => exact absurd hl h'
    | some l => rw [hl] at hs; exact absurd rfl hs

theorem cr_place_total (s : CrSec) (x : Nat) (o : CrObj) (h : CrAbsent s "BUS_X" ∨ ((∃ v, CrGiven s "BUS_X" x v) ∧ ∃ v, CrGiven s "BUS_Y" x v)) : ∃ o', crPlace s x o = .ok o' := by
  unfold crPlace
  by_cases hs : (s.lookup "BUS_X").isSome = true
  · rw [if_pos hs]
    rcases h with h | ⟨h1, h2⟩
    · unfold CrAbsent at h; rw [h] at hs; cases hs
    · apply cr_req_fold_total
      intro kn hk
      rcases List.mem_cons.mp hk with rfl | hk
      · exact h1
      · rw [List.mem_singleton] at hk
        subst hk
        exact h2
  · rw [if_neg hs]; exact ⟨o, rfl⟩

/-- what the settings of a bus hold -/
theorem cr_bus_ok (s : CrSec) (x : Nat) (o : CrObj) (h : crBus s x = .ok o) :
    o "Position" = some (.num x) ∧ (∃ v, CrGiven s "BUS_I" x v ∧ o "Number" = some v) ∧
    (∀ k ∈ ["BASE_KV", "BUS_TYPE", "VM", "VMAX", "VMIN"], ∃ v, CrGiven s k x v ∧ o k = some v) ∧ (∀ v, CrGiven s "BUS_NAME" x v → o "Name" = some v) ∧
    (¬ CrAbsent s "BUS_X" → ∀ k ∈ ["BUS_X", "BUS_Y"], ∃ v, CrGiven s k x v ∧ o k = some v) ∧
    (CrAbsent s "Load_Type" → o "Load_Type" = none) ∧ (¬ CrAbsent s "Load_Type" → ∃ v, CrGiven s "Load_Type" x v ∧ o "Load_Type" = some v) ∧
    (CrAbsent s "Loss_Fix" → o "Loss_Fix" = some (.num 0)) ∧ (¬ CrAbsent s "Loss_Fix" → ∃ v, CrGiven s "Loss_Fix" x v ∧ o "Loss_Fix" = some v) ∧
    (∃ v, CrGiven s "PD" x v) ∧ (∃ v, CrGiven s "QD" x v ∧ o "PeakP" = some v) ∧ o "PeakQ" = none := by
  unfold crBus at h
  rw [except_bind_ok] at h
  obtain ⟨o1, h1, h⟩ := h
  rw [except_bind_ok] at h
  obtain ⟨o2, h2, h⟩ := h
  rw [except_bind_ok] at h
  obtain ⟨o3, h3, h⟩ := h
  rw [except_bind_ok] at h
  obtain ⟨o4, h4, h5⟩ := h
  have f1 := cr_req_fold s x _ _ _ h1
  obtain ⟨n1, n2⟩ := cr_name_ok _ _ _ _ h2
  obtain ⟨p1, p2, p3⟩ := cr_place_ok _ _ _ _ h3
  obtain ⟨q1, q2, q3⟩ := cr_opt_ok _ _ _ _ _ h4
  obtain ⟨r1, r2, r3⟩ := cr_loss_ok _ _ _ _ h5
  have back : ∀ k, k ≠ "Loss_Fix" → k ≠ "Load_Type" → k ≠ "BUS_X" → k ≠ "BUS_Y" → k ≠ "Name" → o k = o1 k := by
    intro k a b c d e
    rw [r1 k a, q1 k b, p1 k c d, n1 k e]
  have must : ∀ k n, k ≠ "Loss_Fix" → k ≠ "Load_Type" → k ≠ "BUS_X" → k ≠ "BUS_Y" → k ≠ "Name" → crBusMust.reverse.lookup k = some n → ∃ v, CrGiven s n x v ∧ o k = some v := by
    intro k n a b c d e hl
    rw [back k a b c d e]
    exact (f1 k).2 n hl
  refine ⟨?_, must "Number" "BUS_I" (by decide) (by decide) (by decide) (by decide) (by decide) (by decide), ?_, ?_, ?_, ?_, ?_, r2, r3, ?_,
    must "PeakP" "QD" (by decide) (by decide) (by decide) (by decide) (by decide) (by decide), ?_⟩
  · rw [back "Position" (by decide) (by decide) (by decide) (by decide) (by decide), (f1 "Position").1 (by decide)]
    rfl
  · intro k hk
    have hk' : k = "BASE_KV" ∨ k = "BUS_TYPE" ∨ k = "VM" ∨ k = "VMAX" ∨ k = "VMIN" := by simpa using hk
    rcases hk' with rfl | rfl | rfl | rfl | rfl <;>
      exact must _ _ (by decide) (by decide) (by decide) (by decide) (by decide) (by decide)
  · intro v hv
    rw [r1 _ (by decide), q1 _ (by decide), p1 _ (by decide) (by decide)]
    exact n2 v hv
  · intro ha k hk
    obtain ⟨v, hv, e⟩ := p2 ha k hk
    have hk' : k = "BUS_X" ∨ k = "BUS_Y" := by simpa using hk
    refine ⟨v, hv, ?_⟩
    rcases hk' with rfl | rfl
    · rw [r1 _ (by decide), q1 _ (by decide), e]
    · rw [r1 _ (by decide), q1 _ (by decide), e]
  · intro ha
    rw [r1 _ (by decide), q2 ha, p1 _ (by decide) (by decide), n1 _ (by decide), (f1 "Load_Type").1 (by decide)]
    rfl
  · intro ha
    obtain ⟨v, hv, e⟩ := q3 ha
    exact ⟨v, hv, by rw [r1 _ (by decide), e]⟩
  · have hm : ∀ kn ∈ crBusMust, ∃ v, CrGiven s kn.2 x v := by
      have aux : ∀ (L : List (String × String)) (o o' : CrObj), L.foldlM (crReq s x) o = .ok o' → ∀ kn ∈ L, ∃ v, CrGiven s kn.2 x v := by
        intro L
        induction L with
        | nil => intro o o' _ kn hk; cases hk
        | cons a L ih =>
          intro o o' h' kn hk
          rw [List.foldlM_cons, except_bind_ok] at h'
          obtain ⟨o1', g1, g2⟩ := h'
          rcases List.mem_cons.mp hk with rfl | hk
          · obtain ⟨v, hv, -⟩ := (cr_req_iff _ _ _ _ _).mp g1
            exact ⟨v, hv⟩
          · exact ih _ _ g2 kn hk
      exact aux _ _ _ h1
    exact hm ("PeakP", "PD") (by decide)
  · rw [back "PeakQ" (by decide) (by decide) (by decide) (by decide) (by decide), (f1 "PeakQ").1 (by decide)]
    rfl

/-- what the settings of a branch hold -/
theorem cr_branch_ok (s : CrSec) (x : Nat) (o : CrObj) (h : crBranch s x = .ok o) :
    o "Position" = some (.num x) ∧ (∀ k ∈ crBranchMay, (CrAbsent s k → o k = none) ∧ (¬ CrAbsent s k → ∃ v, CrGiven s k x v ∧ o k = some v)) ∧
    (CrAbsent s "Loss_Fix" → o "Loss_Fix" = some (.num 0)) ∧ (¬ CrAbsent s "Loss_Fix" → ∃ v, CrGiven s "Loss_Fix" x v ∧ o "Loss_Fix" = some v) := by
  unfold crBranch at h
  rw [except_bind_ok] at h
  obtain ⟨o1, h1, h2⟩ := h
  have f1 := cr_opt_fold s x crBranchMay (by decide) _ _ h1
  obtain ⟨r1, r2, r3⟩ := cr_loss_ok _ _ _ _ h2
  refine ⟨?_, ?_, r2, r3⟩
  · rw [r1 _ (by decide), (f1 "Position").1 (by decide)]
    rfl
  · intro k hk
    have hn : k ≠ "Loss_Fix" := by rintro rfl; revert hk; decide
    have hp : k ≠ "Position" := by rintro rfl; revert hk; decide
    have hq : k ≠ "Number" := by rintro rfl; revert hk; decide
    obtain ⟨q1, q2⟩ := (f1 k).2 hk
    rw [r1 k hn]
    refine ⟨fun ha => ?_, q2⟩
    rw [q1 ha, cr_put_other _ _ _ _ hp, cr_put_other _ _ _ _ hq]

/-- the steps of `crRead` -/
theorem cr_read_iff (d : CrDoc) (c : CrConv) (h : CrHydro) (r : CrRes) (n : CrNet) : crRead d c h r = .ok n ↔
    ∃ costs nGen nBus nBranch version base noGen slack buses branches conv hydro res pd qd,
      d.gencost.lookup "COST" = some costs ∧ crCostRows costs = .ok nGen ∧ d.noBus = some nBus ∧ d.noBranch = some nBranch ∧ d.version = some version ∧ d.base = some base ∧
      d.noGen = some noGen ∧ d.slack = some slack ∧ (List.range nBus).mapM (crBus d.bus) = .ok buses ∧ (List.range nBranch).mapM (crBranch d.branch) = .ok branches ∧
      (List.range nGen).mapM (crConvGen d.gen d.gencost c) = .ok conv ∧ (List.range h.number).mapM (crHydroGen h) = .ok hydro ∧ (List.range r.number).mapM (crResGen r) = .ok res ∧
      crColumn d.bus "PD" = .ok pd ∧ crColumn d.bus "QD" = .ok qd ∧
      n = ⟨base, slack, noGen, buses.map crBusObj, branches.map (crKeep crBranchKeep), conv, hydro, res, pd, qd⟩ := by
  unfold crRead
  constructor
  · intro e
    rw [except_bind_ok] at e; obtain ⟨costs, e1, e⟩ := e
    rw [except_bind_ok] at e; obtain ⟨nGen, e2, e⟩ := e
    rw [except_bind_ok] at e; obtain ⟨nBus, e3, e⟩ := e
    rw [except_bind_ok] at e; obtain ⟨nBranch, e4, e⟩ := e
    rw [except_bind_ok] at e; obtain ⟨version, e5, e⟩ := e
    rw [except_bind_ok] at e; obtain ⟨base, e6, e⟩ := e
    rw [except_bind_ok] at e; obtain ⟨noGen, e7, e⟩ := e
    rw [except_bind_ok] at e; obtain ⟨slack, e8, e⟩ := e
    rw [except_bind_ok] at e; obtain ⟨buses, e9, e⟩ := e
    rw [except_bind_ok] at e; obtain ⟨branches, e10, e⟩ := e
    rw [except_bind_ok] at e; obtain ⟨conv, e11, e⟩ := e
    rw [except_bind_ok] at e; obtain ⟨hydro, e12, e⟩ := e
    rw [except_bind_ok] at e; obtain ⟨res, e13, e⟩ := e
    rw [except_bind_ok] at e; obtain ⟨pd, e14, e⟩ := e
    rw [except_bind_ok] at e; obtain ⟨qd, e15, e⟩ := e
    rw [cr_key_iff] at e1 e3 e4 e5 e6 e7 e8
    have e' : (⟨base, slack, noGen, buses.map crBusObj, branches.map (crKeep crBranchKeep), conv, hydro, res, pd, qd⟩ : CrNet) = n := by injection e
    exact ⟨costs, nGen, nBus, nBranch, version, base, noGen, slack, buses, branches, conv, hydro, res, pd, qd, e1, e2, e3, e4, e5, e6, e7, e8, e9, e10, e11, e12, e13, e14, e15, e'.symm⟩
  · rintro ⟨costs, nGen, nBus, nBranch, version, base, noGen, slack, buses, branches, conv, hydro, res, pd, qd, e1, e2, e3, e4, e5, e6, e7, e8, e9, e10, e11, e12, e13, e14, e15, rfl⟩
    rw [← cr_key_iff] at e1 e3 e4 e5 e6 e7 e8
    rw [e1]; dsimp only [bind, Except.bind]
    rw [e2]; dsimp only
    rw [e3]; dsimp only
    rw [e4]; dsimp only
    rw [e5]; dsimp only
    rw [e6]; dsimp only
    rw [e7]; dsimp only
    rw [e8]; dsimp only
    rw [e9]; dsimp only
    rw [e10]; dsimp only
    rw [e11]; dsimp only
    rw [e12]; dsimp only
    rw [e13]; dsimp only
    rw [e14]; dsimp only
    rw [e15]

theorem cr_num_iff (v : CrVal) (x : Rat) : crNum v = .ok x ↔ v = .num x := by
  cases v <;> simp [crNum]

theorem cr_column (s : CrSec) (name : String) (pd : List Rat) (h : crColumn s name = .ok pd) (x : Nat) (p : Rat) : CrGiven s name x (.num p) ↔ pd[x]? = some p := by
  unfold crColumn at h
  unfold CrGiven
  cases hl : s.lookup name with
  | none => rw [hl] at h; cases h
  | some l =>
    rw [hl] at h
    have h' : l.mapM crNum = .ok pd := h
    rw [mapM_ok_iff, forall₂_iff_getElem?] at h'
    obtain ⟨e, h'⟩ := h'
    simp only [Option.some.injEq, exists_eq_left']
    constructor
    · intro hx
      have hlt : x < pd.length := by
        rw [← e]
        exact (List.getElem?_eq_some_iff.mp hx).1
      have := h' x _ _ hx (List.getElem?_eq_getElem hlt)
      rw [cr_num_iff] at this
      injection this with this
      rw [List.getElem?_eq_getElem hlt, this]
    · intro hx
      have hlt : x < l.length := by
        rw [e]
        exact (List.getElem?_eq_some_iff.mp hx).1
      have := h' x _ _ (List.getElem?_eq_getElem hlt) hx
      rw [cr_num_iff] at this
      rw [List.getElem?_eq_getElem hlt, this]

/-! ## C232: buses and branches -/

/-- **C232.** The network has the buses of the file: number, type, voltages, name, coordinates, load type, fixed losses (zero unless given) and demand of bus `x` are those that the file gives. -/
theorem C232_buses_partial (d : CrDoc) (c : CrConv) (h : CrHydro) (r : CrRes) (n : CrNet) (hn : crRead d c h r = .ok n) (nb : Nat) (hb : d.noBus = some nb) :
    n.buses.length = nb ∧ ∀ x, x < nb → ∃ o, n.buses[x]? = some o ∧ o "Position" = some (.num x) ∧ (∃ v, CrGiven d.bus "BUS_I" x v ∧ o "Number" = some v) ∧
      (∀ k ∈ ["BASE_KV", "BUS_TYPE", "VM", "VMAX", "VMIN"], ∃ v, CrGiven d.bus k x v ∧ o k = some v) ∧ (∀ v, CrGiven d.bus "BUS_NAME" x v → o "Name" = some v) ∧
      (¬ CrAbsent d.bus "BUS_X" → ∀ k ∈ ["BUS_X", "BUS_Y"], ∃ v, CrGiven d.bus k x v ∧ o k = some v) ∧
      (∀ k ∈ ["Load_Type", "Loss_Fix"], (CrAbsent d.bus k → o k = some (.num 0)) ∧ (¬ CrAbsent d.bus k → ∃ v, CrGiven d.bus k x v ∧ o k = some v)) ∧
      (∃ p, CrGiven d.bus "PD" x (.num p) ∧ n.pd[x]? = some p) ∧ (∃ p, CrGiven d.bus "QD" x (.num p) ∧ n.qd[x]? = some p) := by
  obtain ⟨costs, nGen, nBus, nBranch, version, base, noGen, slack, buses, branches, conv, hydro, res, pd, qd, e1, e2, e3, e4, e5, e6, e7, e8, e9, e10, e11, e12, e13, e14, e15, rfl⟩ :=
    (cr_read_iff _ _ _ _ _).mp hn
  rw [hb] at e3
  have : nb = nBus := by injection e3
  subst this
  rw [mapM_range_iff] at e9
  obtain ⟨hl, hall⟩ := e9
  refine ⟨by simp [hl], fun x hx => ?_⟩
  obtain ⟨o, g1, g2⟩ := hall x hx
  obtain ⟨b1, b2, b3, b4, b5, b6, b7, b8, b9, b10, b11, b12⟩ := cr_bus_ok _ _ _ g2
  have keep : ∀ k ∈ crBusKeep, k ≠ "Load_Type" → crBusObj o k = o k := by
    intro k hk hne
    unfold crBusObj
    rw [cr_put_other _ _ _ _ hne]
    unfold crKeep
    rw [if_pos hk]
  have col : ∀ (name : String) (w : List Rat), crColumn d.bus name = .ok w → (∃ v, CrGiven d.bus name x v) → ∃ p, CrGiven d.bus name x (.num p) ∧ w[x]? = some p := by
    intro name w hw hv
    have hlen : ∀ l, d.bus.lookup name = some l → l.length = w.length := by
      intro l hl'
      unfold crColumn at hw
      rw [hl'] at hw
      have h' : l.mapM crNum = .ok w := hw
      rw [mapM_ok_iff, forall₂_iff_getElem?] at h'
      exact h'.1
    obtain ⟨v, l, q1, q2⟩ := hv
    have hlt : x < w.length := by
      rw [← hlen l q1]
      exact (List.getElem?_eq_some_iff.mp q2).1
    exact ⟨w[x], (cr_column _ _ _ hw x _).mpr (List.getElem?_eq_getElem hlt), List.getElem?_eq_getElem hlt⟩
  refine ⟨crBusObj o, by rw [List.getElem?_map, g1]; rfl, ?_, ?_, ?_, ?_, ?_, ?_, col "PD" pd e14 b10, col "QD" qd e15 (b11.imp (fun v hv => hv.1))⟩
  · rw [keep _ (by decide) (by decide)]; exact b1
  · rw [keep _ (by decide) (by decide)]; exact b2
  · intro k hk
    obtain ⟨v, hv, e⟩ := b3 k hk
    have hk' : k = "BASE_KV" ∨ k = "BUS_TYPE" ∨ k = "VM" ∨ k = "VMAX" ∨ k = "VMIN" := by simpa using hk
    refine ⟨v, hv, ?_⟩
    rcases hk' with rfl | rfl | rfl | rfl | rfl <;> (rw [keep _ (by decide) (by decide)]; exact e)
  · intro v hv
    rw [keep _ (by decide) (by decide)]; exact b4 v hv
  · intro ha k hk
    obtain ⟨v, hv, e⟩ := b5 ha k hk
    have hk' : k = "BUS_X" ∨ k = "BUS_Y" := by simpa using hk
    refine ⟨v, hv, ?_⟩
    rcases hk' with rfl | rfl <;> (rw [keep _ (by decide) (by decide)]; exact e)
  · intro k hk
    have hk' : k = "Load_Type" ∨ k = "Loss_Fix" := by simpa using hk
    rcases hk' with rfl | rfl
    · have e : crBusObj o "Load_Type" = some ((o "Load_Type").getD (.num 0)) := cr_put_same _ _ _
      rw [e]
      refine ⟨fun ha => by rw [b6 ha]; rfl, fun ha => ?_⟩
      obtain ⟨v, hv, e'⟩ := b7 ha
      exact ⟨v, hv, by rw [e']; rfl⟩
    · rw [keep _ (by decide) (by decide)]
      exact ⟨b8, b9⟩

/-- **C232.** The network has the branches of the file: ends, resistance, reactance, susceptance, rating, ratio, status and times of branch `x` are those of the file, nothing where the
file has no such column; fixed losses are zero unless given. -/
theorem C232_branches_partial (d : CrDoc) (c : CrConv) (h : CrHydro) (r : CrRes) (n : CrNet) (hn : crRead d c h r = .ok n) (nb : Nat) (hb : d.noBranch = some nb) :
    n.branches.length = nb ∧ ∀ x, x < nb → ∃ o, n.branches[x]? = some o ∧ o "Position" = some (.num x) ∧
      (∀ k ∈ ["F_BUS", "T_BUS", "BR_R", "BR_X", "BR_B", "RATE_A", "TAP", "BR_STATUS", "MTTF", "MTTR"],
        (CrAbsent d.branch k → o k = none) ∧ (¬ CrAbsent d.branch k → ∃ v, CrGiven d.branch k x v ∧ o k = some v)) ∧
      (CrAbsent d.branch "Loss_Fix" → o "Loss_Fix" = some (.num 0)) ∧ (¬ CrAbsent d.branch "Loss_Fix" → ∃ v, CrGiven d.branch "Loss_Fix" x v ∧ o "Loss_Fix" = some v) := by
  obtain ⟨costs, nGen, nBus, nBranch, version, base, noGen, slack, buses, branches, conv, hydro, res, pd, qd, e1, e2, e3, e4, e5, e6, e7, e8, e9, e10, e11, e12, e13, e14, e15, rfl⟩ :=
    (cr_read_iff _ _ _ _ _).mp hn
  rw [hb] at e4
  have : nb = nBranch := by injection e4
  subst this
  rw [mapM_range_iff] at e10
  obtain ⟨hl, hall⟩ := e10
  refine ⟨by simp [hl], fun x hx => ?_⟩
  obtain ⟨o, g1, g2⟩ := hall x hx
  obtain ⟨b1, b2, b3, b4⟩ := cr_branch_ok _ _ _ g2
  have keep : ∀ k ∈ crBranchKeep, crKeep crBranchKeep o k = o k := by
    intro k hk
    unfold crKeep
    rw [if_pos hk]
  refine ⟨crKeep crBranchKeep o, by rw [List.getElem?_map, g1]; rfl, ?_, ?_, ?_, ?_⟩
  · rw [keep _ (by decide)]; exact b1
  · intro k hk
    have hk1 : k ∈ crBranchKeep := by revert hk; revert k; decide
    have hk2 : k ∈ crBranchMay := by revert hk; revert k; decide
    rw [keep k hk1]
    exact b2 k hk2
  · rw [keep _ (by decide)]; exact b3
  · rw [keep _ (by decide)]; exact b4

/-! ## the initialised network -/

theorem cr_whole_iff (o : Option CrVal) (i : Int) : crWhole o = .ok i ↔ ∃ x : Rat, o = some (.num x) ∧ x.floor = i := by
  cases o with
  | none => simp [crWhole]
  | some v => cases v <;> simp [crWhole]

theorem cr_amount_iff (o : Option CrVal) (x : Rat) : crAmount o = .ok x ↔ o = some (.num x) := by
  cases o with
  | none => simp [crAmount]
  | some v => cases v <;> simp [crAmount]

theorem cr_branchIn_iff (o : CrObj) (b : DvBranchIn) : crBranchIn o = .ok b ↔ crWhole (o "F_BUS") = .ok b.fbus ∧ crWhole (o "T_BUS") = .ok b.tbus ∧ crAmount (o "RATE_A") = .ok b.rate := by
  unfold crBranchIn
  rw [except_bind_ok]
  constructor
  · rintro ⟨f, h1, h⟩
    rw [except_bind_ok] at h
    obtain ⟨t, h2, h⟩ := h
    rw [except_bind_ok] at h
    obtain ⟨r, h3, h⟩ := h
    have : (⟨f, t, r⟩ : DvBranchIn) = b := by injection h
    subst this
    exact ⟨h1, h2, h3⟩
  · rintro ⟨h1, h2, h3⟩
    refine ⟨b.fbus, h1, ?_⟩
    rw [h2, h3]
    rfl

theorem cr_init_iff (n : CrNet) (s : DvSettings) (net : DvNet) : crInit n s = .ok net ↔
    ∃ numbers brs, n.buses.mapM (fun o => crWhole (o "Number")) = .ok numbers ∧ n.branches.mapM crBranchIn = .ok brs ∧ dvInitialise numbers brs n.base s = .ok net := by
  unfold crInit
  rw [except_bind_ok]
  constructor
  · rintro ⟨a, h1, h⟩
    rw [except_bind_ok] at h
    obtain ⟨b, h2, h⟩ := h
    exact ⟨a, b, h1, h2, h⟩
  · rintro ⟨a, b, h1, h2, h⟩
    refine ⟨a, h1, ?_⟩
    rw [except_bind_ok]
    exact ⟨b, h2, h⟩

theorem busAt_get (numbers : List Int) (f : Int) (p : Nat) (h : busAt numbers f = some p) : numbers[p]? = some f := by
  unfold busAt at h
  rw [List.findIdx?_eq_some_iff_getElem] at h
  obtain ⟨hlt, hx, -⟩ := h
  rw [List.getElem?_eq_getElem hlt]
  simpa using hx

/-- the number at a position of the initialised network is the number that the file gives there -/
theorem cr_number (d : CrDoc) (c : CrConv) (h : CrHydro) (r : CrRes) (n : CrNet) (hn : crRead d c h r = .ok n) (hw : ∀ x v, CrGiven d.bus "BUS_I" x v → ∃ i : Int, v = .num i)
    (numbers : List Int) (hm : n.buses.mapM (fun o => crWhole (o "Number")) = .ok numbers) (p : Nat) (i : Int) (hp : numbers[p]? = some i) : CrGiven d.bus "BUS_I" p (.num i) := by
  rw [mapM_ok_iff, forall₂_iff_getElem?] at hm
  obtain ⟨hlen, hm⟩ := hm
  obtain ⟨nb, hb⟩ : ∃ nb, d.noBus = some nb := by
    obtain ⟨costs, nGen, nBus, nBranch, version, base, noGen, slack, buses, branches, conv, hydro, res, pd, qd, e1, e2, e3, -⟩ := (cr_read_iff _ _ _ _ _).mp hn
    exact ⟨nBus, e3⟩
  obtain ⟨q1, q2⟩ := C232_buses_partial d c h r n hn nb hb
  have hlt : p < numbers.length := (List.getElem?_eq_some_iff.mp hp).1
  obtain ⟨o, g1, -, ⟨v, g2, g3⟩, -⟩ := q2 p (by omega)
  have := hm p _ _ g1 hp
  rw [cr_whole_iff, g3] at this
  obtain ⟨x, t1, t2⟩ := this
  obtain ⟨j, rfl⟩ := hw p v g2
  have : x = (j : Rat) := by
    injection t1 with t1
    injection t1 with t1
    exact t1.symm
  subst this
  have : j = i := by rw [← t2]; exact (Rat.floor_intCast j).symm
  subst this
  exact g2

/-- **C232.** In the network of the optimisation, branch `x` joins the buses that the file names and has the rating of the file, per unit of the base. -/
theorem C232_network_partial (d : CrDoc) (c : CrConv) (h : CrHydro) (r : CrRes) (n : CrNet) (hn : crRead d c h r = .ok n)
    (hw : ∀ x v, CrGiven d.bus "BUS_I" x v → ∃ i : Int, v = .num i) (hf : ∀ k ∈ ["F_BUS", "T_BUS"], ∀ x v, CrGiven d.branch k x v → ∃ i : Int, v = .num i)
    (s : DvSettings) (net : DvNet) (hi : crInit n s = .ok net) (nb : Nat) (hb : d.noBranch = some nb) (x : Nat) (hx : x < nb) :
    ∃ b f t rate base, net.branches[x]? = some b ∧ CrGiven d.branch "F_BUS" x (.num f) ∧ CrGiven d.bus "BUS_I" b.fpos (.num f) ∧
      CrGiven d.branch "T_BUS" x (.num t) ∧ CrGiven d.bus "BUS_I" b.tpos (.num t) ∧ CrGiven d.branch "RATE_A" x (.num rate) ∧ d.base = some base ∧ b.rate = rate / base := by
  obtain ⟨numbers, brs, h1, h2, h3⟩ := (cr_init_iff _ _ _).mp hi
  obtain ⟨q1, q2⟩ := C232_branches_partial d c h r n hn nb hb
  obtain ⟨o, g1, -, g2, -⟩ := q2 x hx
  have hlen : n.branches.length = brs.length := by
    rw [mapM_ok_iff, forall₂_iff_getElem?] at h2
    exact h2.1
  have hlt : x < brs.length := by omega
  have hbr : crBranchIn o = .ok brs[x] := by
    rw [mapM_ok_iff, forall₂_iff_getElem?] at h2
    exact h2.2 x _ _ g1 (List.getElem?_eq_getElem hlt)
  obtain ⟨a1, a2, a3⟩ := (cr_branchIn_iff _ _).mp hbr
  obtain ⟨b, c1, c2, c3, c4⟩ := (C101_connections_partial numbers brs n.base s net h3).1 x _ (List.getElem?_eq_getElem hlt)
  have hbase : d.base = some n.base := by
    obtain ⟨costs, nGen, nBus, nBranch, version, base, noGen, slack, buses, branches, conv, hydro, res, pd, qd, e1, e2, e3, e4, e5, e6, e7, e8, e9, e10, e11, e12, e13, e14, e15, rfl⟩ :=
      (cr_read_iff _ _ _ _ _).mp hn
    exact e6
  have given : ∀ k ∈ ["F_BUS", "T_BUS", "BR_R", "BR_X", "BR_B", "RATE_A", "TAP", "BR_STATUS", "MTTF", "MTTR"], ∀ v, o k = some v → CrGiven d.branch k x v := by
    intro k hk v hv
    by_cases ha : CrAbsent d.branch k
    · rw [(g2 k hk).1 ha] at hv; cases hv
    · obtain ⟨w, w1, w2⟩ := (g2 k hk).2 ha
      rw [w2] at hv
      have : w = v := by injection hv
      rw [← this]; exact w1
  have ends : ∀ k ∈ ["F_BUS", "T_BUS"], ∀ i : Int, crWhole (o k) = .ok i → CrGiven d.branch k x (.num i) := by
    intro k hk i hk2
    obtain ⟨y, y1, y2⟩ := (cr_whole_iff _ _).mp hk2
    have hg := given k (by
      have hk' : k = "F_BUS" ∨ k = "T_BUS" := by simpa using hk
      rcases hk' with rfl | rfl <;> decide) _ y1
    obtain ⟨j, hj⟩ := hf k hk x _ hg
    have : y = (j : Rat) := by injection hj
    subst this
    have : j = i := by rw [← y2]; exact (Rat.floor_intCast j).symm
    subst this
    exact hg
  refine ⟨b, _, _, brs[x].rate, n.base, c1, ends "F_BUS" (by simp) _ a1, cr_number d c h r n hn hw numbers h1 _ _ (busAt_get _ _ _ c2), ends "T_BUS" (by simp) _ a2,
    cr_number d c h r n hn hw numbers h1 _ _ (busAt_get _ _ _ c3), given "RATE_A" (by simp) _ ((cr_amount_iff _ _).mp a3), hbase, c4⟩

/-- violated: a branch that is out of service in the file is in service in the optimisation, with its full rating -/
theorem C232_status_violated (d : CrDoc) (c : CrConv) (h : CrHydro) (r : CrRes) (n : CrNet) (hn : crRead d c h r = .ok n) (s : DvSettings) (net : DvNet) (hi : crInit n s = .ok net)
    (nb : Nat) (hb : d.noBranch = some nb) (x : Nat) (hx : x < nb) (_hs : CrGiven d.branch "BR_STATUS" x (.num 0)) : flowVar net x 0 = some x := by
  obtain ⟨numbers, brs, h1, h2, h3⟩ := (cr_init_iff _ _ _).mp hi
  obtain ⟨q1, q2⟩ := C232_branches_partial d c h r n hn nb hb
  have hlen : n.branches.length = brs.length := by
    rw [mapM_ok_iff, forall₂_iff_getElem?] at h2
    exact h2.1
  exact (C52_active_partial numbers brs n.base s net h3 x (by omega)).1

/-- violated: the active peak of a bus is the reactive demand of the file, and the reactive peak is missing -/
theorem C232_peak_violated (d : CrDoc) (c : CrConv) (h : CrHydro) (r : CrRes) (n : CrNet) (hn : crRead d c h r = .ok n) (nb : Nat) (hb : d.noBus = some nb) (x : Nat) (hx : x < nb) :
    ∃ o v, n.buses[x]? = some o ∧ CrGiven d.bus "QD" x v ∧ o "PeakP" = some v ∧ o "PeakQ" = none := by
  obtain ⟨costs, nGen, nBus, nBranch, version, base, noGen, slack, buses, branches, conv, hydro, res, pd, qd, e1, e2, e3, e4, e5, e6, e7, e8, e9, e10, e11, e12, e13, e14, e15, rfl⟩ :=
    (cr_read_iff _ _ _ _ _).mp hn
  rw [hb] at e3
  have : nb = nBus := by injection e3
  subst this
  rw [mapM_range_iff] at e9
  obtain ⟨o, g1, g2⟩ := e9.2 x hx
  obtain ⟨-, -, -, -, -, -, -, -, -, -, ⟨v, b1, b2⟩, b3⟩ := cr_bus_ok _ _ _ g2
  have keep : ∀ k ∈ crBusKeep, k ≠ "Load_Type" → crBusObj o k = o k := by
    intro k hk hne
    unfold crBusObj
    rw [cr_put_other _ _ _ _ hne]
    unfold crKeep
    rw [if_pos hk]
  exact ⟨crBusObj o, v, by rw [List.getElem?_map, g1]; rfl, b1, by rw [keep _ (by decide) (by decide)]; exact b2, by rw [keep _ (by decide) (by decide)]; exact b3⟩

/-! ## C233: generators -/

/-- one value for all, or one for each -/
def CrOwn {α : Type} (l : List α) (x : Nat) (v : α) : Prop := l = [v] ∨ (l.length ≠ 1 ∧ l[x]? = some v)

theorem cr_share_iff {α : Type} (l : List α) (x : Nat) (v : α) : crShare l x = .ok v ↔ CrOwn l x v := by
  unfold crShare CrOwn
  match l with
  | [] => simpa using pyGet_nat_iff ([] : List α) x v
  | [w] => simp
  | a :: b :: l => simpa using pyGet_nat_iff (a :: b :: l) x v

/-- the setting of a conventional unit: none, one for all, one for each -/
def CrSetting {α : Type} (l : List α) (x : Nat) (v : Option α) : Prop := (l = [] ∧ v = none) ∨ (∃ w, v = some w ∧ CrOwn l x w)

theorem cr_time_ok (l : List Nat) (x : Nat) (v : Option Nat) (h : timeSetting l x = .ok v) : CrSetting l x v := by
  unfold timeSetting at h
  unfold CrSetting CrOwn
  match l, h with
  | [], h => left; exact ⟨rfl, by injection h with h; exact h.symm⟩
  | [w], h => right; exact ⟨w, by injection h with h; exact h.symm, Or.inl rfl⟩
  | a :: b :: l, h =>
    right
    rw [except_bind_ok] at h
    obtain ⟨w, h1, h2⟩ := h
    rw [pyGet_nat_iff] at h1
    exact ⟨w, by injection h2 with h2; exact h2.symm, Or.inr ⟨by simp, h1⟩⟩

/-- the ramp of a conventional unit: that of the settings, or of the file if the settings have none; `none` if there is none -/
def CrRamp (g : CrSec) (l : List Rat) (x : Nat) (v : Option Rat) : Prop :=
  (l = [] ∧ CrAbsent g "Ramp" ∧ v = none) ∨ (l = [] ∧ ∃ w, CrGiven g "Ramp" x (.num w) ∧ v = some w) ∨ (∃ w, v = some w ∧ CrOwn l x w)

theorem cr_ramp_ok (g : CrSec) (l : List Rat) (x : Nat) (fr : Option (List Rat)) (hf : crFileRamp g = .ok fr) (v : Option Rat) (h : rampSetting l fr x = .ok v) :
    CrRamp g l x v ∨ (1 < l.length ∧ l.length < x) := by
  unfold rampSetting at h
  unfold CrRamp CrOwn
  match l, h with
  | [], h =>
    unfold crFileRamp at hf
    cases hl : g.lookup "Ramp" with
    | none =>
      rw [hl] at hf
      have : fr = none := by injection hf with hf; exact hf.symm
      subst this
      left; left
      exact ⟨rfl, hl, by injection h with h; exact h.symm⟩
    | some col =>
      rw [hl] at hf
      cases hm : col.mapM crNum with
      | error e => simp only [hm] at hf; cases hf
      | ok w =>
        simp only [hm] at hf
        have : fr = some w := by injection hf with hf; exact hf.symm
        subst this
        left; right; left
        refine ⟨rfl, ?_⟩
        simp only at h
        rw [except_bind_ok] at h
        obtain ⟨y, h1, h2⟩ := h
        rw [pyGet_nat_iff] at h1
        have hc : crColumn g "Ramp" = .ok w := by
          unfold crColumn
          rw [hl]
          exact hm
        exact ⟨y, (cr_column _ _ _ hc x y).mpr h1, by injection h2 with h2; exact h2.symm⟩
  | [w], h => left; right; right; exact ⟨w, by injection h with h; exact h.symm, Or.inl rfl⟩
  | a :: b :: l, h =>
    simp only at h
    by_cases hx : x ≤ (a :: b :: l).length
    · rw [if_pos hx] at h
      left; right; right
      rw [except_bind_ok] at h
      obtain ⟨w, h1, h2⟩ := h
      rw [pyGet_nat_iff] at h1
      exact ⟨w, by injection h2 with h2; exact h2.symm, Or.inr ⟨by simp, h1⟩⟩
    · rw [if_neg hx] at h
      right
      exact ⟨by simp, by omega⟩

/-- **C233.** There is a conventional generator for every row of costs of the file; its bus, limits, outputs, voltage, status and times are those of the file (nothing if the file has no such
column), its costs those of its row, and its ramp, minimum times and services the ones of the settings (one for all, or its own). -/
theorem C233_conventional_partial (d : CrDoc) (c : CrConv) (h : CrHydro) (r : CrRes) (n : CrNet) (hn : crRead d c h r = .ok n) :
    ∃ costs, d.gencost.lookup "COST" = some costs ∧ n.conv.length = costs.length ∧ ∀ x, x < costs.length → ∃ g, n.conv[x]? = some g ∧
      (∀ k ∈ ["GEN_BUS", "PMAX", "PMIN", "QMAX", "QMIN", "PG", "QG", "VG", "GEN", "MTTF", "MTTR"], (CrAbsent d.gen k → g.data k = none) ∧ (¬ CrAbsent d.gen k → ∃ v, CrGiven d.gen k x v ∧ g.data k = some v)) ∧
      (∀ k ∈ ["COST", "MODEL", "NCOST", "SHUTDOWN", "STARTUP"], ∃ v, CrGiven d.gencost k x v ∧ g.cost k = some v) ∧
      CrRamp d.gen c.ramp x g.ramp ∧ CrSetting c.mut' x g.mut' ∧ CrSetting c.mdt x g.mdt ∧ CrOwn c.ancillary x g.ancillary ∧ CrOwn c.baseload x g.baseload ∧ CrOwn c.res x g.res := by
  obtain ⟨costs, nGen, nBus, nBranch, version, base, noGen, slack, buses, branches, conv, hydro, res, pd, qd, e1, e2, e3, e4, e5, e6, e7, e8, e9, e10, e11, e12, e13, e14, e15, rfl⟩ :=
    (cr_read_iff _ _ _ _ _).mp hn
  have hg : nGen = costs.length := by
    unfold crCostRows at e2
    rw [except_bind_ok] at e2
    obtain ⟨sh, -, e2⟩ := e2
    by_cases hc : (sh.all (fun a => a == sh.headD none)) = true
    · rw [if_pos hc] at e2; injection e2 with e2; exact e2.symm
    · rw [if_neg hc] at e2; cases e2
  subst hg
  rw [mapM_range_iff] at e11
  obtain ⟨hl, hall⟩ := e11
  refine ⟨costs, e1, hl, fun x hx => ?_⟩
  obtain ⟨g, g1, g2⟩ := hall x hx
  unfold crConvGen at g2
  rw [except_bind_ok] at g2; obtain ⟨dd, a1, g2⟩ := g2
  rw [except_bind_ok] at g2; obtain ⟨k, a2, g2⟩ := g2
  rw [except_bind_ok] at g2; obtain ⟨fr, a3, g2⟩ := g2
  rw [except_bind_ok] at g2; obtain ⟨rr, a4, g2⟩ := g2
  rw [except_bind_ok] at g2; obtain ⟨u, a5, g2⟩ := g2
  rw [except_bind_ok] at g2; obtain ⟨w, a6, g2⟩ := g2
  rw [except_bind_ok] at g2; obtain ⟨a, a7, g2⟩ := g2
  rw [except_bind_ok] at g2; obtain ⟨b, a8, g2⟩ := g2
  rw [except_bind_ok] at g2; obtain ⟨s, a9, g2⟩ := g2
  have : (⟨dd, k, rr, u, w, a, b, s⟩ : CrConvGen) = g := by injection g2
  subst this
  rw [cr_share_iff] at a7 a8 a9
  have f1 := cr_opt_fold d.gen x crGenMay (by decide) _ _ a1
  have f2 := cr_req_fold d.gencost x _ _ _ a2
  have hramp : CrRamp d.gen c.ramp x rr := by
    rcases cr_ramp_ok _ _ _ _ a3 _ a4 with h' | ⟨h1, h2⟩
    · exact h'
    · exfalso
      obtain ⟨g', -, w2⟩ := hall c.ramp.length (by omega)
      unfold crConvGen at w2
      rw [except_bind_ok] at w2; obtain ⟨_, -, w2⟩ := w2
      rw [except_bind_ok] at w2; obtain ⟨_, -, w2⟩ := w2
      rw [except_bind_ok] at w2; obtain ⟨fr', -, w2⟩ := w2
      rw [except_bind_ok] at w2; obtain ⟨rr', b4, w2⟩ := w2
      unfold rampSetting at b4
      match hc : c.ramp, b4, h1 with
      | a :: b :: l, b4, _ =>
        simp only [if_pos (Nat.le_refl _)] at b4
        rw [except_bind_ok] at b4
        obtain ⟨y, b5, -⟩ := b4
        rw [pyGet_nat_iff] at b5
        simp at b5
  refine ⟨_, g1, ?_, ?_, hramp, cr_time_ok _ _ _ a5, cr_time_ok _ _ _ a6, a7, a8, a9⟩
  · intro k' hk'
    have hk1 : k' ∈ crGenMay := by revert hk'; revert k'; decide
    have hk2 : k' ≠ "Position" := by rintro rfl; revert hk'; decide
    obtain ⟨q1, q2⟩ := (f1 k').2 hk1
    refine ⟨fun ha => ?_, q2⟩
    show dd k' = none
    rw [q1 ha, cr_put_other _ _ _ _ hk2]
  · intro k' hk'
    have hk3 : k' = "COST" ∨ k' = "MODEL" ∨ k' = "NCOST" ∨ k' = "SHUTDOWN" ∨ k' = "STARTUP" := by simpa using hk'
    rcases hk3 with rfl | rfl | rfl | rfl | rfl <;> exact (f2 _).2 _ (by decide)

/-- **C233.** Hydropower and renewable generators are those of the settings: bus, capacity, minimum (zero unless given) and linear cost of unit `x` are the `x`-th ones; ramp, baseload and
services are one for all or one for each. -/
theorem C233_units_partial (d : CrDoc) (c : CrConv) (h : CrHydro) (r : CrRes) (n : CrNet) (hn : crRead d c h r = .ok n) :
    n.hydro.length = h.number ∧ n.res.length = r.number ∧
    (∀ x, x < h.number → ∃ g, n.hydro[x]? = some g ∧ g.position = x ∧ h.bus[x]? = some g.bus ∧ h.max[x]? = some g.max ∧ ((h.min = [] ∧ g.min = 0) ∨ h.min[x]? = some g.min) ∧
      (∃ k, h.cost[x]? = some k ∧ g.cost = [0, 0, 1, k]) ∧ CrOwn h.ramp x g.ramp ∧ CrOwn h.baseload x g.baseload ∧ CrOwn h.ancillary x g.ancillary ∧ CrOwn h.res x g.res) ∧
    (∀ x, x < r.number → ∃ g, n.res[x]? = some g ∧ g.position = x ∧ r.bus[x]? = some g.bus ∧ r.max[x]? = some g.max ∧ g.min = 0 ∧ ∃ k, r.cost[x]? = some k ∧ g.cost = [0, 0, 1, k]) := by
  obtain ⟨costs, nGen, nBus, nBranch, version, base, noGen, slack, buses, branches, conv, hydro, res, pd, qd, e1, e2, e3, e4, e5, e6, e7, e8, e9, e10, e11, e12, e13, e14, e15, rfl⟩ :=
    (cr_read_iff _ _ _ _ _).mp hn
  rw [mapM_range_iff] at e12 e13
  refine ⟨e12.1, e13.1, fun x hx => ?_, fun x hx => ?_⟩
  · obtain ⟨g, g1, g2⟩ := e12.2 x hx
    unfold crHydroGen at g2
    rw [except_bind_ok] at g2; obtain ⟨a, a1, g2⟩ := g2
    rw [except_bind_ok] at g2; obtain ⟨b, a2, g2⟩ := g2
    rw [except_bind_ok] at g2; obtain ⟨rr, a3, g2⟩ := g2
    rw [except_bind_ok] at g2; obtain ⟨s, a4, g2⟩ := g2
    rw [except_bind_ok] at g2; obtain ⟨bus, a5, g2⟩ := g2
    rw [except_bind_ok] at g2; obtain ⟨mx, a6, g2⟩ := g2
    rw [except_bind_ok] at g2; obtain ⟨mn, a7, g2⟩ := g2
    rw [except_bind_ok] at g2; obtain ⟨k, a8, g2⟩ := g2
    have : (⟨x, bus, mx, mn, [0, 0, 1, k], rr, b, a, s⟩ : CrUnit) = g := by injection g2
    subst this
    rw [cr_share_iff] at a1 a2 a3 a4
    rw [pyGet_nat_iff] at a5 a6 a8
    refine ⟨_, g1, rfl, a5, a6, ?_, ⟨k, a8, rfl⟩, a3, a2, a1, a4⟩
    unfold crMin at a7
    by_cases hm : h.min ≠ []
    · rw [if_pos hm, pyGet_nat_iff] at a7
      exact Or.inr a7
    · rw [if_neg hm] at a7
      left
      exact ⟨by simpa using hm, by injection a7 with a7; exact a7.symm⟩
  · obtain ⟨g, g1, g2⟩ := e13.2 x hx
    unfold crResGen at g2
    rw [except_bind_ok] at g2; obtain ⟨bus, a5, g2⟩ := g2
    rw [except_bind_ok] at g2; obtain ⟨mx, a6, g2⟩ := g2
    rw [except_bind_ok] at g2; obtain ⟨k, a8, g2⟩ := g2
    have : (⟨x, bus, mx, 0, [0, 0, 1, k], none, 0, 0, 0⟩ : CrUnit) = g := by injection g2
    subst this
    rw [pyGet_nat_iff] at a5 a6 a8
    exact ⟨_, g1, rfl, a5, a6, rfl, k, a8, rfl⟩

/-- **C233.** In the optimisation, conventional generator `x` is at the bus of the file and has the limits of the file, per unit of the base. -/
theorem C233_limits_partial (d : CrDoc) (c : CrConv) (h : CrHydro) (r : CrRes) (n : CrNet) (hn : crRead d c h r = .ok n)
    (hw : ∀ x v, CrGiven d.bus "BUS_I" x v → ∃ i : Int, v = .num i) (hf : ∀ x v, CrGiven d.gen "GEN_BUS" x v → ∃ i : Int, v = .num i)
    (g : DpGens) (hg : crGens n = .ok g) (x : Nat) (hx : x < n.conv.length) :
    ∃ o b mx mn base, g.classes.flatten[x]? = some o ∧ CrGiven d.gen "GEN_BUS" x (.num b) ∧ CrGiven d.bus "BUS_I" o.busPos (.num b) ∧
      CrGiven d.gen "PMAX" x (.num mx) ∧ CrGiven d.gen "PMIN" x (.num mn) ∧ d.base = some base ∧ o.max = mx / base ∧ o.min = mn / base := by
  unfold crGens at hg
  rw [except_bind_ok] at hg; obtain ⟨numbers, h1, hg⟩ := hg
  rw [except_bind_ok] at hg; obtain ⟨conv, h2, hg⟩ := hg
  have hbase : d.base = some n.base := by
    obtain ⟨costs, nGen, nBus, nBranch, version, base, noGen, slack, buses, branches, conv, hydro, res, pd, qd, e1, e2, e3, e4, e5, e6, e7, e8, e9, e10, e11, e12, e13, e14, e15, rfl⟩ :=
      (cr_read_iff _ _ _ _ _).mp hn
    exact e6
  obtain ⟨costs, -, hlc, hconv⟩ := C233_conventional_partial d c h r n hn
  obtain ⟨gg, g1, g2, -⟩ := hconv x (by omega)
  rw [mapM_ok_iff, forall₂_iff_getElem?] at h2
  obtain ⟨hlen, h2⟩ := h2
  have hlt : x < conv.length := by omega
  have h3 := h2 x _ _ g1 (List.getElem?_eq_getElem hlt)
  unfold crConvIn at h3
  rw [except_bind_ok] at h3; obtain ⟨b, b1, h3⟩ := h3
  rw [except_bind_ok] at h3; obtain ⟨mx, b2, h3⟩ := h3
  rw [except_bind_ok] at h3; obtain ⟨mn, b3, h3⟩ := h3
  have h4 : conv[x] = ⟨b, mx, mn, gg.mdt, gg.mut'⟩ := by injection h3 with h3; exact h3.symm
  have hi : (conv ++ n.hydro.map crUnitIn ++ n.res.map crUnitIn)[x]? = some ⟨b, mx, mn, gg.mdt, gg.mut'⟩ := by
    rw [List.append_assoc, List.getElem?_append_left hlt, List.getElem?_eq_getElem hlt, h4]
  obtain ⟨o, o1, o2, o3, o4, o5, o6, -⟩ := C105_variables numbers n.base conv _ _ g hg x _ hi
  have given : ∀ k ∈ ["GEN_BUS", "PMAX", "PMIN", "QMAX", "QMIN", "PG", "QG", "VG", "GEN", "MTTF", "MTTR"], ∀ v, gg.data k = some v → CrGiven d.gen k x v := by
    intro k hk v hv
    by_cases ha : CrAbsent d.gen k
    · rw [(g2 k hk).1 ha] at hv; cases hv
    · obtain ⟨w, w1, w2⟩ := (g2 k hk).2 ha
      rw [w2] at hv
      have : w = v := by injection hv
      rw [← this]; exact w1
  obtain ⟨y, y1, y2⟩ := (cr_whole_iff _ _).mp b1
  have hgb := given "GEN_BUS" (by simp) _ y1
  obtain ⟨j, hj⟩ := hf x _ hgb
  have : y = (j : Rat) := by injection hj
  subst this
  have : j = b := by rw [← y2]; exact (Rat.floor_intCast j).symm
  subst this
  exact ⟨o, _, mx, mn, n.base, o1, hgb, cr_number d c h r n hn hw numbers h1 _ _ (busAt_get _ _ _ o4), given "PMAX" (by simp) _ ((cr_amount_iff _ _).mp b2),
    given "PMIN" (by simp) _ ((cr_amount_iff _ _).mp b3), hbase, o5, o6⟩

/-- violated: a generator that is out of service in the file keeps its capacity in the optimisation -/
theorem C233_status_violated (d : CrDoc) (c : CrConv) (h : CrHydro) (r : CrRes) (n : CrNet) (hn : crRead d c h r = .ok n)
    (hw : ∀ x v, CrGiven d.bus "BUS_I" x v → ∃ i : Int, v = .num i) (hf : ∀ x v, CrGiven d.gen "GEN_BUS" x v → ∃ i : Int, v = .num i)
    (g : DpGens) (hg : crGens n = .ok g) (x : Nat) (hx : x < n.conv.length) (_hs : CrGiven d.gen "GEN" x (.num 0)) (mx base : Rat) (hm : CrGiven d.gen "PMAX" x (.num mx)) (hb : d.base = some base) :
    ∃ o, g.classes.flatten[x]? = some o ∧ o.max = mx / base := by
  obtain ⟨o, b, mx', mn, base', q1, -, -, ⟨l1, q2, q3⟩, -, q4, q5, -⟩ := C233_limits_partial d c h r n hn hw hf g hg x hx
  obtain ⟨l2, w2, w3⟩ := hm
  rw [q2] at w2
  have : l1 = l2 := by injection w2
  subst this
  rw [q3] at w3
  have : mx' = mx := by
    injection w3 with w3
    injection w3
  subst this
  rw [hb] at q4
  have : base = base' := by injection q4
  subst this
  exact ⟨o, q1, q5⟩

/-- violated: cost curves with different numbers of coefficients make the reading fail -/
theorem C233_ragged_violated (d : CrDoc) (c : CrConv) (h : CrHydro) (r : CrRes) (costs : List CrVal) (hc : d.gencost.lookup "COST" = some costs) (a b : List Rat)
    (ha : CrVal.list a ∈ costs) (hb : CrVal.list b ∈ costs) (hab : a.length ≠ b.length) (n : CrNet) : crRead d c h r ≠ .ok n := by
  intro hn
  obtain ⟨costs', nGen, nBus, nBranch, version, base, noGen, slack, buses, branches, conv, hydro, res, pd, qd, e1, e2, -⟩ := (cr_read_iff _ _ _ _ _).mp hn
  rw [hc] at e1
  have : costs = costs' := by injection e1
  subst this
  unfold crCostRows at e2
  rw [except_bind_ok] at e2
  obtain ⟨sh, s1, e2⟩ := e2
  rw [mapM_ok_iff, forall₂_iff_getElem?] at s1
  obtain ⟨hl, s1⟩ := s1
  have mem : ∀ w : List Rat, CrVal.list w ∈ costs → some w.length ∈ sh := by
    intro w hw
    obtain ⟨i, hi, hiw⟩ := List.mem_iff_getElem.mp hw
    have := s1 i _ _ (List.getElem?_eq_getElem hi) (List.getElem?_eq_getElem (by omega))
    rw [hiw] at this
    have e : some w.length = sh[i]'(by omega) := by injection this
    rw [e]
    exact List.getElem_mem _
  by_cases hall : (sh.all (fun a => a == sh.headD none)) = true
  · rw [List.all_eq_true] at hall
    have h1 := hall _ (mem a ha)
    have h2 := hall _ (mem b hb)
    rw [beq_iff_eq] at h1 h2
    rw [← h2] at h1
    injection h1 with h1
    exact hab h1
  · rw [if_neg hall] at e2; cases e2

/-- violated: a file with more rows of costs than generators (costs of reactive power) is not read -/
theorem C233_reactive_violated (d : CrDoc) (c : CrConv) (h : CrHydro) (r : CrRes) (costs col : List CrVal) (hc : d.gencost.lookup "COST" = some costs) (hg : d.gen.lookup "PMAX" = some col)
    (hlt : col.length < costs.length) (n : CrNet) : crRead d c h r ≠ .ok n := by
  intro hn
  obtain ⟨costs', e1, e2, e3⟩ := C233_conventional_partial d c h r n hn
  rw [hc] at e1
  have : costs = costs' := by injection e1
  subst this
  obtain ⟨g, -, g2, -⟩ := e3 col.length hlt
  obtain ⟨v, ⟨l, w1, w2⟩, -⟩ := (g2 "PMAX" (by simp)).2 (by unfold CrAbsent; rw [hg]; simp)
  rw [hg] at w1
  have : col = l := by injection w1
  subst this
  simp at w2

/-! ## complete files -/

/-- the column, if there is one, has a value for each of `m` elements -/
def CrCovers (s : CrSec) (k : String) (m : Nat) : Prop := ∀ l, s.lookup k = some l → m ≤ l.length

/-- a column of numbers, one for each of `m` elements -/
def CrNumbers (s : CrSec) (k : String) (m : Nat) : Prop := ∃ l : List Rat, s.lookup k = some (l.map CrVal.num) ∧ m ≤ l.length

/-- a list of settings is usable for `m` elements: one for all or enough -/
def CrEnough {α : Type} (l : List α) (m : Nat) : Prop := l.length = 1 ∨ m ≤ l.length

theorem cr_covers_opt (s : CrSec) (k : String) (m x : Nat) (h : CrCovers s k m) (hx : x < m) : CrAbsent s k ∨ ∃ v, CrGiven s k x v := by
  unfold CrAbsent
  cases hl : s.lookup k with
  | none => exact Or.inl rfl
  | some l =>
    have := h l hl
    exact Or.inr ⟨l[x]'(by omega), l, hl, List.getElem?_eq_getElem _⟩

theorem cr_share_total {α : Type} (l : List α) (m x : Nat) (h : CrEnough l m) (hx : x < m) : ∃ v, crShare l x = .ok v := by
  unfold crShare
  match l, h with
  | [], h => rcases h with h | h <;> simp at h; omega
  | [w], _ => exact ⟨w, rfl⟩
  | a :: b :: l, h =>
    have : x < (a :: b :: l).length := by
      rcases h with h | h
      · simp at h
      · omega
    exact ⟨(a :: b :: l)[x], (pyGet_nat_iff _ _ _).mpr (List.getElem?_eq_getElem this)⟩

theorem cr_get_total {α : Type} (l : List α) (m x : Nat) (h : m ≤ l.length) (hx : x < m) : ∃ v, pyGet l (x : Int) = .ok v :=
  ⟨l[x]'(by omega), (pyGet_nat_iff _ _ _).mpr (List.getElem?_eq_getElem _)⟩

theorem cr_range_total {α : Type} (f : Nat → Except PyErr α) : ∀ (n : Nat), (∀ k, k < n → ∃ a, f k = .ok a) → ∃ r, (List.range n).mapM f = .ok r := by
  intro n h
  choose g hg using h
  refine ⟨(List.range n).pmap (fun k hk => g k hk) (fun k hk => List.mem_range.mp hk), ?_⟩
  rw [mapM_range_iff]
  refine ⟨by simp, fun k hk => ⟨g k hk, by simp [hk], hg k hk⟩⟩

/-- the file has what is needed: `nb` buses, `nl` branches, `ng` generators -/
structure CrComplete (d : CrDoc) (nb nl ng : Nat) : Prop where
  head : d.noBus = some nb ∧ d.noBranch = some nl ∧ d.version ≠ none ∧ d.base ≠ none ∧ d.noGen ≠ none ∧ d.slack ≠ none
  bus : ∀ k ∈ ["BUS_I", "PD", "QD", "BASE_KV", "BS", "BUS_AREA", "BUS_TYPE", "GS", "VM", "VA", "VMAX", "VMIN", "ZONE"], CrNumbers d.bus k nb
  busMay : CrCovers d.bus "Load_Type" nb ∧ CrCovers d.bus "Loss_Fix" nb ∧ (∀ l, d.bus.lookup "BUS_NAME" = some l → l = [] ∨ nb ≤ l.length) ∧
    (CrAbsent d.bus "BUS_X" ∨ (CrNumbers d.bus "BUS_X" nb ∧ CrNumbers d.bus "BUS_Y" nb))
  branch : ∀ k ∈ ["ANGMAX", "ANGMIN", "BR_B", "BR_R", "BR_STATUS", "BR_X", "F_BUS", "RATE_A", "RATE_B", "RATE_C", "TAP", "T_BUS", "MTTF", "MTTR", "Loss_Fix"], CrCovers d.branch k nl
  gen : ∀ k ∈ ["APF", "GEN_BUS", "MBASE", "PC1", "PC2", "PG", "PMAX", "PMIN", "QC1MIN", "QC1MAX", "QC2MIN", "QC2MAX", "QG", "QMAX", "QMIN", "RAMP_AGC", "RAMP_10", "RAMP_30", "RAMP_Q", "VG", "GEN",
    "MTTF", "MTTR"], CrCovers d.gen k ng
  ramp : CrAbsent d.gen "Ramp" ∨ CrNumbers d.gen "Ramp" ng
  cost : ∃ (m : Nat) (rows : List (List Rat)), d.gencost.lookup "COST" = some (rows.map CrVal.list) ∧ rows.length = ng ∧ ∀ w ∈ rows, w.length = m
  costs : ∀ k ∈ ["MODEL", "NCOST", "SHUTDOWN", "STARTUP"], CrNumbers d.gencost k ng

/-- the settings have what is needed for `ng` conventional generators -/
structure CrSettingsOk (c : CrConv) (h : CrHydro) (r : CrRes) (ng : Nat) : Prop where
  conv : CrEnough c.ancillary ng ∧ CrEnough c.baseload ng ∧ CrEnough c.res ng ∧ (c.ramp = [] ∨ CrEnough c.ramp ng) ∧ (c.mut' = [] ∨ CrEnough c.mut' ng) ∧ (c.mdt = [] ∨ CrEnough c.mdt ng)
  hydro : h.number ≤ h.bus.length ∧ h.number ≤ h.max.length ∧ h.number ≤ h.cost.length ∧ (h.min = [] ∨ h.number ≤ h.min.length) ∧ CrEnough h.ramp h.number ∧ CrEnough h.baseload h.number ∧
    CrEnough h.ancillary h.number ∧ CrEnough h.res h.number
  res : r.number ≤ r.bus.length ∧ r.number ≤ r.max.length ∧ r.number ≤ r.cost.length

theorem cr_numbers_given (s : CrSec) (k : String) (m x : Nat) (h : CrNumbers s k m) (hx : x < m) : ∃ v, CrGiven s k x v := by
  obtain ⟨l, h1, h2⟩ := h
  refine ⟨.num (l[x]'(by omega)), _, h1, ?_⟩
  rw [List.getElem?_map, List.getElem?_eq_getElem (by omega)]
  rfl

theorem cr_numbers_column (s : CrSec) (k : String) (m : Nat) (h : CrNumbers s k m) : ∃ w, crColumn s k = .ok w := by
  obtain ⟨l, h1, h2⟩ := h
  refine ⟨l, ?_⟩
  unfold crColumn
  rw [h1]
  show (l.map CrVal.num).mapM crNum = .ok l
  rw [mapM_ok_iff, List.forall₂_map_left_iff]
  exact List.forall₂_same.mpr (fun x _ => rfl)

theorem cr_time_total (l : List Nat) (m x : Nat) (h : l = [] ∨ CrEnough l m) (hx : x < m) : ∃ v, timeSetting l x = .ok v := by
  unfold timeSetting
  match l, h with
  | [], _ => exact ⟨_, rfl⟩
  | [w], _ => exact ⟨_, rfl⟩
  | a :: b :: l, h =>
    have : x < (a :: b :: l).length := by
      rcases h with h | h | h
      · cases h
      · simp at h
      · omega
    refine ⟨some (a :: b :: l)[x], ?_⟩
    show Except.bind (pyGet (a :: b :: l) (x : Int)) _ = _
    rw [(pyGet_nat_iff _ _ _).mpr (List.getElem?_eq_getElem this)]
    rfl

theorem cr_ramp_total (l : List Rat) (fr : Option (List Rat)) (m x : Nat) (h : l = [] ∨ CrEnough l m) (hf : ∀ w, fr = some w → m ≤ w.length) (hx : x < m) : ∃ v, rampSetting l fr x = .ok v := by
  unfold rampSetting
  match l, h with
  | [], _ =>
    cases fr with
    | none => exact ⟨_, rfl⟩
    | some w =>
      have := hf w rfl
      refine ⟨some (w[x]'(by omega)), ?_⟩
      show Except.bind (pyGet w (x : Int)) _ = _
      rw [(pyGet_nat_iff _ _ _).mpr (List.getElem?_eq_getElem (by omega))]
      rfl
  | [w], _ => exact ⟨_, rfl⟩
  | a :: b :: l, h =>
    have : x < (a :: b :: l).length := by
      rcases h with h | h | h
      · cases h
      · simp at h
      · omega
    refine ⟨some (a :: b :: l)[x], ?_⟩
    simp only
    rw [if_pos (by omega)]
    rw [(pyGet_nat_iff _ _ _).mpr (List.getElem?_eq_getElem this)]
    rfl

/-- **C232, C233.** A file and settings that have what is needed are read. -/
theorem C232_read_partial (d : CrDoc) (c : CrConv) (h : CrHydro) (r : CrRes) (nb nl ng : Nat) (hd : CrComplete d nb nl ng) (hs : CrSettingsOk c h r ng) : ∃ n, crRead d c h r = .ok n := by
  obtain ⟨a1, a2, a3, a4, a5, a6⟩ := hd.head
  obtain ⟨version, a3⟩ := Option.ne_none_iff_exists'.mp a3
  obtain ⟨base, a4⟩ := Option.ne_none_iff_exists'.mp a4
  obtain ⟨noGen, a5⟩ := Option.ne_none_iff_exists'.mp a5
  obtain ⟨slack, a6⟩ := Option.ne_none_iff_exists'.mp a6
  obtain ⟨m, rows, k1, k2, k3⟩ := hd.cost
  have hrows : crCostRows (rows.map CrVal.list) = .ok ng := by
    unfold crCostRows
    rw [except_bind_ok]
    refine ⟨rows.map (fun w => some w.length), ?_, ?_⟩
    · rw [mapM_ok_iff, List.forall₂_map_left_iff, List.forall₂_map_right_iff]
      exact List.forall₂_same.mpr (fun x _ => rfl)
    · rw [if_pos]
      · rw [List.length_map, k2]
      · rw [List.all_eq_true]
        intro e he
        obtain ⟨w, hw, rfl⟩ := List.mem_map.mp he
        rw [beq_iff_eq]
        cases rows with
        | nil => cases hw
        | cons w0 rows =>
          show some w.length = some w0.length
          rw [k3 w hw, k3 w0 (by simp)]
  obtain ⟨p1, p2, p3, p4⟩ := hd.busMay
  have hbus : ∀ x, x < nb → ∃ o, crBus d.bus x = .ok o := by
    intro x hx
    unfold crBus
    have hmust : ∀ kn ∈ crBusMust, ∃ v, CrGiven d.bus kn.2 x v := by
      intro kn hk
      apply cr_numbers_given d.bus kn.2 nb x _ hx
      apply hd.bus
      revert hk; revert kn; decide
    obtain ⟨o1, h1⟩ := cr_req_fold_total d.bus x crBusMust (crPut (fun _ => none) "Position" (some (.num x))) hmust
    obtain ⟨o2, h2⟩ := cr_name_total d.bus x o1 (fun l hl => (p3 l hl).imp id (fun h => by omega))
    obtain ⟨o3, h3⟩ := cr_place_total d.bus x o2 (p4.imp id (fun h => ⟨cr_numbers_given _ _ _ _ h.1 hx, cr_numbers_given _ _ _ _ h.2 hx⟩))
    obtain ⟨o4, h4⟩ := cr_opt_total d.bus x o3 "Load_Type" (cr_covers_opt _ _ _ _ p1 hx)
    obtain ⟨o5, h5⟩ := cr_loss_total d.bus x o4 (cr_covers_opt _ _ _ _ p2 hx)
    refine ⟨o5, ?_⟩
    rw [except_bind_ok]; refine ⟨o1, h1, ?_⟩
    rw [except_bind_ok]; refine ⟨o2, h2, ?_⟩
    rw [except_bind_ok]; refine ⟨o3, h3, ?_⟩
    rw [except_bind_ok]; exact ⟨o4, h4, h5⟩
  have hbranch : ∀ x, x < nl → ∃ o, crBranch d.branch x = .ok o := by
    intro x hx
    unfold crBranch
    obtain ⟨o1, h1⟩ := cr_opt_fold_total d.branch x crBranchMay (crPut (crPut (fun _ => none) "Number" (some (.num (x + 1)))) "Position" (some (.num x)))
      (fun k hk => cr_covers_opt _ _ nl _ (hd.branch k (by revert hk; revert k; decide)) hx)
    obtain ⟨o2, h2⟩ := cr_loss_total d.branch x o1 (cr_covers_opt _ _ nl _ (hd.branch _ (by decide)) hx)
    exact ⟨o2, by rw [except_bind_ok]; exact ⟨o1, h1, h2⟩⟩
  have hfr : ∃ fr, crFileRamp d.gen = .ok fr ∧ ∀ w, fr = some w → ng ≤ w.length := by
    rcases hd.ramp with hr | ⟨l, l1, l2⟩
    · exact ⟨none, by unfold crFileRamp; rw [hr], fun w hw => by cases hw⟩
    · refine ⟨some l, ?_, fun w hw => by injection hw with hw; subst hw; exact l2⟩
      unfold crFileRamp
      rw [l1]
      have : (l.map CrVal.num).mapM crNum = .ok l := by
        rw [mapM_ok_iff, List.forall₂_map_left_iff]
        exact List.forall₂_same.mpr (fun x _ => rfl)
      simp only [this]
      rfl
  obtain ⟨fr, f1, f2⟩ := hfr
  obtain ⟨c1, c2, c3, c4, c5, c6⟩ := hs.conv
  have hconv : ∀ x, x < ng → ∃ g, crConvGen d.gen d.gencost c x = .ok g := by
    intro x hx
    unfold crConvGen
    obtain ⟨o1, h1⟩ := cr_opt_fold_total d.gen x crGenMay (crPut (fun _ => none) "Position" (some (.num x)))
      (fun k hk => cr_covers_opt _ _ ng _ (hd.gen k (by revert hk; revert k; decide)) hx)
    obtain ⟨o2, h2⟩ := cr_req_fold_total d.gencost x crCostMust (fun _ => none) (by
      intro kn hk
      by_cases hc : kn.2 = "COST"
      · rw [hc]
        refine ⟨.list (rows[x]'(by omega)), _, k1, ?_⟩
        rw [List.getElem?_map, List.getElem?_eq_getElem (by omega)]
        rfl
      · apply cr_numbers_given d.gencost kn.2 ng x _ hx
        apply hd.costs
        revert hc; revert hk; revert kn; decide)
    obtain ⟨v1, w1⟩ := cr_ramp_total c.ramp fr ng x c4 f2 hx
    obtain ⟨v2, w2⟩ := cr_time_total c.mut' ng x c5 hx
    obtain ⟨v3, w3⟩ := cr_time_total c.mdt ng x c6 hx
    obtain ⟨v4, w4⟩ := cr_share_total c.ancillary ng x c1 hx
    obtain ⟨v5, w5⟩ := cr_share_total c.baseload ng x c2 hx
    obtain ⟨v6, w6⟩ := cr_share_total c.res ng x c3 hx
    rw [h1]; dsimp only [bind, Except.bind]
    rw [h2]; dsimp only
    rw [f1]; dsimp only
    rw [w1]; dsimp only
    rw [w2]; dsimp only
    rw [w3]; dsimp only
    rw [w4]; dsimp only
    rw [w5]; dsimp only
    rw [w6]
    exact ⟨_, rfl⟩
  obtain ⟨u1, u2, u3, u4, u5, u6, u7, u8⟩ := hs.hydro
  have hhydro : ∀ x, x < h.number → ∃ g, crHydroGen h x = .ok g := by
    intro x hx
    unfold crHydroGen
    obtain ⟨v1, w1⟩ := cr_share_total h.ancillary _ x u7 hx
    obtain ⟨v2, w2⟩ := cr_share_total h.baseload _ x u6 hx
    obtain ⟨v3, w3⟩ := cr_share_total h.ramp _ x u5 hx
    obtain ⟨v4, w4⟩ := cr_share_total h.res _ x u8 hx
    obtain ⟨v5, w5⟩ := cr_get_total h.bus _ x u1 hx
    obtain ⟨v6, w6⟩ := cr_get_total h.max _ x u2 hx
    obtain ⟨v8, w8⟩ := cr_get_total h.cost _ x u3 hx
    have : ∃ v, crMin h.min x = .ok v := by
      unfold crMin
      by_cases hm : h.min ≠ []
      · rw [if_pos hm]
        rcases u4 with u4 | u4
        · exact absurd u4 hm
        · exact cr_get_total h.min _ x u4 hx
      · rw [if_neg hm]; exact ⟨0, rfl⟩
    obtain ⟨v7, w7⟩ := this
    rw [w1]; dsimp only [bind, Except.bind]
    rw [w2]; dsimp only
    rw [w3]; dsimp only
    rw [w4]; dsimp only
    rw [w5]; dsimp only
    rw [w6]; dsimp only
    rw [w7]; dsimp only
    rw [w8]
    exact ⟨_, rfl⟩
  obtain ⟨t1, t2, t3⟩ := hs.res
  have hres : ∀ x, x < r.number → ∃ g, crResGen r x = .ok g := by
    intro x hx
    unfold crResGen
    obtain ⟨v5, w5⟩ := cr_get_total r.bus _ x t1 hx
    obtain ⟨v6, w6⟩ := cr_get_total r.max _ x t2 hx
    obtain ⟨v8, w8⟩ := cr_get_total r.cost _ x t3 hx
    rw [w5]; dsimp only [bind, Except.bind]
    rw [w6]; dsimp only
    rw [w8]
    exact ⟨_, rfl⟩
  obtain ⟨buses, hB⟩ := cr_range_total _ nb hbus
  obtain ⟨branches, hL⟩ := cr_range_total _ nl hbranch
  obtain ⟨conv, hC⟩ := cr_range_total _ ng hconv
  obtain ⟨hydro, hH⟩ := cr_range_total _ h.number hhydro
  obtain ⟨res, hR⟩ := cr_range_total _ r.number hres
  obtain ⟨pd, hP⟩ := cr_numbers_column d.bus "PD" nb (hd.bus _ (by decide))
  obtain ⟨qd, hQ⟩ := cr_numbers_column d.bus "QD" nb (hd.bus _ (by decide))
  exact ⟨_, (cr_read_iff _ _ _ _ _).mpr ⟨_, ng, nb, nl, version, base, noGen, slack, buses, branches, conv, hydro, res, pd, qd, k1, hrows, a1, a2, a3, a4, a5, a6, hB, hL, hC, hH, hR, hP, hQ, rfl⟩⟩

/-- a file: buses 7 and 3, two branches between them (the second one out of service), one generator with a linear cost -/
def crDoc0 : CrDoc := ⟨some 2, some 100, some 1, some 7, some 2, some 2,
  [("BUS_I", [.num 7, .num 3]), ("BUS_TYPE", [.num 3, .num 1]), ("PD", [.num 0, .num 90]), ("QD", [.num 0, .num 30]), ("GS", [.num 0, .num 0]), ("BS", [.num 0, .num 0]),
   ("BUS_AREA", [.num 1, .num 1]), ("VM", [.num 1, .num 1]), ("VA", [.num 0, .num 0]), ("BASE_KV", [.num 132, .num 132]), ("ZONE", [.num 1, .num 1]), ("VMAX", [.num 2, .num 2]),
   ("VMIN", [.num 0, .num 0]), ("BUS_NAME", [.text "A", .text "B"])],
  [("F_BUS", [.num 7, .num 3]), ("T_BUS", [.num 3, .num 7]), ("BR_R", [.num 0, .num 0]), ("BR_X", [.num 1, .num 2]), ("RATE_A", [.num 50, .num 60]), ("BR_STATUS", [.num 1, .num 0])],
  [("GEN_BUS", [.num 7]), ("PMAX", [.num 200]), ("PMIN", [.num 20]), ("GEN", [.num 0])],
  [("MODEL", [.num 2]), ("STARTUP", [.num 0]), ("SHUTDOWN", [.num 0]), ("NCOST", [.num 2]), ("COST", [.list [10, 0]])]⟩

theorem cr_doc0_complete : CrComplete crDoc0 2 2 1 where
  head := by refine ⟨rfl, rfl, ?_, ?_, ?_, ?_⟩ <;> exact Option.some_ne_none _
  bus := by
    intro k hk
    have hk' : k = "BUS_I" ∨ k = "PD" ∨ k = "QD" ∨ k = "BASE_KV" ∨ k = "BS" ∨ k = "BUS_AREA" ∨ k = "BUS_TYPE" ∨ k = "GS" ∨ k = "VM" ∨ k = "VA" ∨ k = "VMAX" ∨ k = "VMIN" ∨ k = "ZONE" := by simpa using hk
    rcases hk' with rfl | rfl | rfl | rfl | rfl | rfl | rfl | rfl | rfl | rfl | rfl | rfl | rfl <;> exact ⟨[_, _], rfl, Nat.le_refl 2⟩
  busMay := by
    refine ⟨fun l hl => ?_, fun l hl => ?_, fun l hl => Or.inr ?_, Or.inl rfl⟩
    · have e : crDoc0.bus.lookup "Load_Type" = none := rfl
      rw [e] at hl; cases hl
    · have e : crDoc0.bus.lookup "Loss_Fix" = none := rfl
      rw [e] at hl; cases hl
    · have : l = [.text "A", .text "B"] := by
        have e : crDoc0.bus.lookup "BUS_NAME" = some [.text "A", .text "B"] := rfl
        rw [e] at hl
        injection hl with hl
        exact hl.symm
      rw [this]
      decide
  branch := by
    intro k _ l hl
    have : ∀ e ∈ crDoc0.branch, e.2.length = 2 := by decide
    have := this (k, l) (List.lookup_eq_some_iff.mp hl |> fun ⟨l1, l2, e, _⟩ => by rw [e]; simp)
    simp only at this
    omega
  gen := by
    intro k _ l hl
    have : ∀ e ∈ crDoc0.gen, e.2.length = 1 := by decide
    have := this (k, l) (List.lookup_eq_some_iff.mp hl |> fun ⟨l1, l2, e, _⟩ => by rw [e]; simp)
    simp only at this
    omega
  ramp := Or.inl rfl
  cost := ⟨2, [[10, 0]], rfl, rfl, by intro w hw; rw [List.mem_singleton] at hw; rw [hw]; rfl⟩
  costs := by
    intro k hk
    have hk' : k = "MODEL" ∨ k = "NCOST" ∨ k = "SHUTDOWN" ∨ k = "STARTUP" := by simpa using hk
    rcases hk' with rfl | rfl | rfl | rfl <;> exact ⟨[_], rfl, Nat.le_refl 1⟩

/-- the file is read with one hydropower unit; the branch and the generator that are out of service are in the optimisation -/
theorem C232_witness : CrComplete crDoc0 2 2 1 ∧ CrGiven crDoc0.branch "BR_STATUS" 1 (.num 0) ∧ CrGiven crDoc0.gen "GEN" 0 (.num 0) ∧
    ∃ n net g, crRead crDoc0 {} { number := 1, bus := [3], max := [40], cost := [5] } {} = .ok n ∧ crInit n {} = .ok net ∧ crGens n = .ok g ∧
      net.branches.map (fun b => (b.fpos, b.tpos, b.rate)) = [(0, 1, 1 / 2), (1, 0, 3 / 5)] ∧ flowVar net 1 0 = some 1 ∧
      g.classes.flatten.map (fun o => (o.busPos, o.max, o.min)) = [(0, 2, 1 / 5), (1, 2 / 5, 0)] ∧ n.pd = [0, 90] := by
  refine ⟨cr_doc0_complete, ⟨_, rfl, rfl⟩, ⟨_, rfl, rfl⟩, ?_⟩
  refine ⟨_, _, _, rfl, rfl, rfl, ?_, ?_, ?_, ?_⟩
  · decide +kernel
  · decide +kernel
  · decide +kernel
  · decide +kernel

/-- the same file with a ramp for the generators, a hydropower and a renewable unit -/
theorem C233_witness : CrSettingsOk { ramp := [1 / 2] } { number := 1, bus := [3], max := [40], cost := [5] } { number := 1, bus := [7], max := [30], cost := [2] } 1 ∧
    ∃ n g, crRead crDoc0 { ramp := [1 / 2] } { number := 1, bus := [3], max := [40], cost := [5] } { number := 1, bus := [7], max := [30], cost := [2] } = .ok n ∧ crGens n = .ok g ∧
      n.conv.map (fun c => (c.ramp, c.cost "COST")) = [(some (1 / 2), some (.list [10, 0]))] ∧ n.hydro.map (fun u => (u.bus, u.max, u.cost)) = [(3, 40, [0, 0, 1, 5])] ∧
      n.res.map (fun u => (u.bus, u.max, u.cost)) = [(7, 30, [0, 0, 1, 2])] ∧ g.classes.flatten.map (fun o => o.max) = [2, 2 / 5, 3 / 10] := by
  refine ⟨⟨?_, ?_, ?_⟩, ?_⟩
  · refine ⟨Or.inl rfl, Or.inl rfl, Or.inl rfl, Or.inr (Or.inl rfl), Or.inl rfl, Or.inl rfl⟩
  · exact ⟨Nat.le_refl 1, Nat.le_refl 1, Nat.le_refl 1, Or.inl rfl, Or.inl rfl, Or.inl rfl, Or.inl rfl, Or.inl rfl⟩
  · exact ⟨Nat.le_refl 1, Nat.le_refl 1, Nat.le_refl 1⟩
  · refine ⟨_, _, rfl, rfl, ?_, ?_, ?_, ?_⟩
    · decide +kernel
    · decide +kernel
    · decide +kernel
    · decide +kernel

end Pyensys
