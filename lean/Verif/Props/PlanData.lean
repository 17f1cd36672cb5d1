import Verif.Model.PlanData
import Verif.Props.Energy
import Verif.Props.AttestOptions
import Verif.Props.ScreeningLP
import Verif.Props.ReduceBranches

/-!
# C165-C169: data of the investment tool
-/

namespace Pyensys

/-! ## loops that append -/

/-- a loop over numbers that appends to its state is a map -/
theorem foldlM_append {σ α : Type} (step : σ → Nat → Except PyErr σ) (f : Nat → Except PyErr α) (app : σ → α → σ) (size : σ → Nat)
    (h : ∀ s k, size s = k → step s k = f k >>= fun a => .ok (app s a)) (hs : ∀ s a, size (app s a) = size s + 1) (n m : Nat) (s : σ) (h0 : size s = m) :
    (List.range' m n).foldlM step s = (List.range' m n).mapM f >>= fun l => .ok (l.foldl app s) := by
  induction n generalizing m s with
  | zero => rfl
  | succ n ih =>
    rw [List.range'_succ, List.foldlM_cons, List.mapM_cons, h s m h0]
    cases hf : f m with
    | error e => rfl
    | ok a =>
      show (List.range' (m + 1) n).foldlM step (app s a) = _
      rw [ih (m + 1) (app s a) (by rw [hs, h0])]
      show _ = ((List.range' (m + 1) n).mapM f >>= fun t => Except.ok (a :: t)) >>= _
      cases (List.range' (m + 1) n).mapM f <;> rfl

/-! ## load sheets -/

/-- row `i` is the first of bus `b` -/
def FirstRow (load : PdSheet) (b : Int) (i : Nat) : Prop := (∃ r, load[i]? = some (b, r)) ∧ ∀ (j : Nat) (q : Int × List Rat), j < i → load[j]? = some q → q.1 ≠ b

theorem pdRowsOf_cons (load : PdSheet) (b : Int) : (pdRowsOf load b = [] ∧ ∀ q ∈ load, q.1 ≠ b) ∨
    ∃ i t, pdRowsOf load b = i :: t ∧ FirstRow load b i := by
  unfold pdRowsOf
  cases h : load.zipIdx.filter (fun r => r.1.1 == b) with
  | nil =>
    left
    refine ⟨rfl, ?_⟩
    intro q hq e
    rw [List.filter_eq_nil_iff] at h
    obtain ⟨i, hi, rfl⟩ := List.getElem_of_mem hq
    exact h (load[i], i) (List.mem_zipIdx_iff_getElem?.2 (List.getElem?_eq_getElem hi)) (by simpa using e)
  | cons a t =>
    right
    refine ⟨a.2, t.map (fun r => r.2), rfl, ?_, ?_⟩
    · have hm : a ∈ load.zipIdx.filter (fun r => r.1.1 == b) := by rw [h]; exact List.mem_cons_self ..
      rw [List.mem_filter] at hm
      have h1 := List.mem_zipIdx_iff_getElem?.1 (show (a.1, a.2) ∈ load.zipIdx from hm.1)
      have h2 : a.1.1 = b := by simpa using hm.2
      exact ⟨a.1.2, by rw [h1, ← h2]⟩
    · intro j q hj hq e
      have hm : (q, j) ∈ load.zipIdx.filter (fun r => r.1.1 == b) := by
        rw [List.mem_filter]
        exact ⟨List.mem_zipIdx_iff_getElem?.2 hq, by simpa using e⟩
      have hp : (load.zipIdx.filter (fun r => r.1.1 == b)).Pairwise (fun x y => x.2 < y.2) :=
        (List.pairwise_iff_getElem.2 (fun i j hi hj hij => by simpa using hij)).filter _
      rw [h] at hm hp
      rcases List.mem_cons.1 hm with he | he
      · rw [← he] at hj; simp at hj
      · have := (List.pairwise_cons.1 hp).1 _ he
        simp at this
        omega

theorem firstRow_unique {load : PdSheet} {b : Int} {i j : Nat} (hi : FirstRow load b i) (hj : FirstRow load b j) : i = j := by
  obtain ⟨⟨r, h1⟩, h2⟩ := hi
  obtain ⟨⟨q, h3⟩, h4⟩ := hj
  rcases Nat.lt_trichotomy i j with h | h | h
  · exact absurd rfl (h4 i _ h h1)
  · exact h
  · exact absurd rfl (h2 j _ h h3)

/-- what one bus adds to the lists of `get_peak_data` -/
def pdLook (load : PdSheet) (buses : List Int) (hour : Int) (k : Nat) : Except PyErr (List Rat × Rat) := do
  let bus ← npGet buses k
  match pdRowsOf load bus with
  | i :: _ =>
    let row ← npGet load i
    let v ← pyGet row.2 hour
    .ok (row.2, v)
  | [] => .ok (List.replicate 24 0, 0)

theorem npGet_last {α : Type} (l : List α) (a : α) (k : Nat) (h : l.length = k) : npGet (l ++ [a]) k = .ok a := by
  subst h
  exact npGet_some (by simp)

theorem pdPeakBus_eq (load : PdSheet) (buses : List Int) (hour : Int) (s : List (List Rat) × List Rat) (k : Nat) (h : s.1.length = k) :
    pdPeakBus load buses hour s k = pdLook load buses hour k >>= fun a => .ok (s.1 ++ [a.1], s.2 ++ [a.2]) := by
  unfold pdPeakBus pdLook
  cases npGet buses k with
  | error e => rfl
  | ok b =>
    simp only [bind, Except.bind]
    cases pdRowsOf load b with
    | nil => rfl
    | cons i t =>
      simp only
      cases npGet load i with
      | error e => rfl
      | ok row =>
        simp only [npGet_last _ _ _ h]
        cases pyGet row.2 hour <;> rfl

theorem getPeakData_eq (load : PdSheet) (n : Nat) (buses : List Int) (hour : Int) :
    getPeakData load n buses hour = (List.range n).mapM (pdLook load buses hour) >>= fun l => .ok (l.map (·.2)) := by
  unfold getPeakData
  have := foldlM_append (pdPeakBus load buses hour) (pdLook load buses hour) (fun s a => (s.1 ++ [a.1], s.2 ++ [a.2])) (fun s => s.1.length)
    (fun s k h => pdPeakBus_eq load buses hour s k h) (by intro s a; simp) n 0 ([], []) rfl
  rw [← List.range_eq_range'] at this
  rw [this]
  cases (List.range n).mapM (pdLook load buses hour) with
  | error e => rfl
  | ok l =>
    simp only [bind, Except.bind]
    have : ∀ (l : List (List Rat × Rat)) (s : List (List Rat) × List Rat), (l.foldl (fun s a => (s.1 ++ [a.1], s.2 ++ [a.2])) s).2 = s.2 ++ l.map (·.2) := by
      intro l
      induction l with
      | nil => intro s; simp
      | cons a t ih => intro s; rw [List.foldl_cons, ih]; simp
    rw [this]
    rfl

/-- the value of bus `b` at hour `h`: that of its first row, or zero if it has none -/
def PeakOf (load : PdSheet) (h : Nat) (b : Int) (v : Rat) : Prop :=
  (∃ i r, FirstRow load b i ∧ load[i]? = some (b, r) ∧ r[h]? = some v) ∨ ((∀ q ∈ load, q.1 ≠ b) ∧ v = 0)

theorem pdLook_iff (load : PdSheet) (buses : List Int) (h k : Nat) (a : List Rat × Rat) : pdLook load buses (h : Int) k = .ok a ↔
    ∃ b, buses[k]? = some b ∧ ((∃ i, FirstRow load b i ∧ load[i]? = some (b, a.1) ∧ a.1[h]? = some a.2) ∨
      ((∀ q ∈ load, q.1 ≠ b) ∧ a = (List.replicate 24 0, 0))) := by
  unfold pdLook
  rw [except_bind_ok]
  refine exists_congr fun b => ?_
  rw [npGet_iff]
  refine and_congr_right fun _ => ?_
  rcases pdRowsOf_cons load b with ⟨h1, h2⟩ | ⟨i, t, h1, h2⟩
  · rw [h1]
    simp only [Except.ok.injEq]
    constructor
    · intro e; exact .inr ⟨h2, e.symm⟩
    · rintro (⟨i, hf, hr, _⟩ | ⟨_, e⟩)
      · exact absurd rfl (h2 _ (List.mem_of_getElem? hr))
      · exact e.symm
  · rw [h1]
    obtain ⟨⟨r, hr⟩, h3⟩ := h2
    simp only [npGet_some hr, bind, Except.bind]
    have hf : FirstRow load b i := ⟨⟨r, hr⟩, h3⟩
    constructor
    · intro e
      cases hp : pyGet r (h : Int) with
      | error x => rw [hp] at e; simp at e
      | ok v =>
        rw [hp] at e
        simp only [Except.ok.injEq] at e
        subst e
        exact .inl ⟨i, hf, hr, (pyGet_nat_iff _ _ _).1 hp⟩
    · rintro (⟨j, hj, hr', hv⟩ | ⟨hn, _⟩)
      · have := firstRow_unique hf hj
        subst this
        rw [hr] at hr'
        simp only [Option.some.injEq, Prod.mk.injEq, true_and] at hr'
        subst hr'
        rw [(pyGet_nat_iff _ _ _).2 hv]
      · exact absurd rfl (hn _ (List.mem_of_getElem? hr))

theorem mapM_range_iff {α : Type} (f : Nat → Except PyErr α) (n : Nat) (r : List α) : (List.range n).mapM f = .ok r ↔
    r.length = n ∧ ∀ k, k < n → ∃ a, r[k]? = some a ∧ f k = .ok a := by
  rw [mapM_ok_iff, forall₂_iff_getElem?]
  constructor
  · rintro ⟨h1, h2⟩
    rw [List.length_range] at h1
    refine ⟨h1.symm, fun k hk => ?_⟩
    have hr : r[k]? = some r[k] := List.getElem?_eq_getElem (by omega)
    exact ⟨_, hr, h2 k k _ (List.getElem?_range hk) hr⟩
  · rintro ⟨h1, h2⟩
    refine ⟨by simp [h1], ?_⟩
    intro k a b ha hb
    obtain ⟨hk, e⟩ := List.getElem?_eq_some_iff.1 ha
    rw [List.length_range] at hk
    rw [List.getElem_range] at e
    subst e
    obtain ⟨c, hc, hf⟩ := h2 k hk
    rw [hb, Option.some.injEq] at hc
    subst hc
    exact hf

/-- **C165**: the peak loads are given exactly if there is a number for every bus and the first row of every bus that has one reaches the peak hour; then they are, in the order of the buses,
the loads of the first row of each bus at the peak hour, and zero for a bus that is not in the sheet. -/
theorem C165_peak (load : PdSheet) (n : Nat) (buses : List Int) (h : Nat) (r : List Rat) : getPeakData load n buses (h : Int) = .ok r ↔
    r.length = n ∧ ∀ k, k < n → ∃ b v, buses[k]? = some b ∧ r[k]? = some v ∧ PeakOf load h b v := by
  rw [getPeakData_eq, except_bind_ok]
  constructor
  · rintro ⟨l, hl, e⟩
    rw [Except.ok.injEq] at e
    subst e
    rw [mapM_range_iff] at hl
    refine ⟨by rw [List.length_map, hl.1], fun k hk => ?_⟩
    obtain ⟨a, ha, hf⟩ := hl.2 k hk
    obtain ⟨b, hb, hc⟩ := (pdLook_iff _ _ _ _ _).1 hf
    refine ⟨b, a.2, hb, by rw [List.getElem?_map, ha]; rfl, ?_⟩
    rcases hc with ⟨i, h1, h2, h3⟩ | ⟨h1, h2⟩
    · exact .inl ⟨i, a.1, h1, h2, h3⟩
    · exact .inr ⟨h1, by rw [h2]⟩
  · rintro ⟨hlen, hk⟩
    have hex : ∀ k, k < n → ∃ a, pdLook load buses (h : Int) k = .ok a ∧ r[k]? = some a.2 := by
      intro k hkn
      obtain ⟨b, v, hb, hv, hp⟩ := hk k hkn
      rcases hp with ⟨i, q, h1, h2, h3⟩ | ⟨h1, h2⟩
      · exact ⟨(q, v), (pdLook_iff _ _ _ _ _).2 ⟨b, hb, .inl ⟨i, h1, h2, h3⟩⟩, hv⟩
      · exact ⟨(List.replicate 24 0, 0), (pdLook_iff _ _ _ _ _).2 ⟨b, hb, .inr ⟨h1, rfl⟩⟩, by rw [hv, h2]⟩
    obtain ⟨l, hl⟩ : ∃ l, (List.range n).mapM (pdLook load buses (h : Int)) = .ok l := by
      cases hm : (List.range n).mapM (pdLook load buses (h : Int)) with
      | ok l => exact ⟨l, rfl⟩
      | error e =>
        have := mapM_total_of (pdLook load buses (h : Int)) (List.range n) (fun k hk => (hex k (List.mem_range.1 hk)).imp fun a ha => ha.1)
        obtain ⟨l, hl⟩ := this
        rw [hl] at hm
        cases hm
    refine ⟨l, hl, ?_⟩
    rw [Except.ok.injEq]
    rw [mapM_range_iff] at hl
    apply List.ext_getElem?
    intro k
    rw [List.getElem?_map]
    by_cases hkn : k < n
    · obtain ⟨a, ha, hv⟩ := hex k hkn
      obtain ⟨c, hc, hf⟩ := hl.2 k hkn
      rw [ha, Except.ok.injEq] at hf
      subst hf
      rw [hc, hv]
      rfl
    · rw [List.getElem?_eq_none (by omega), List.getElem?_eq_none (by omega)]
      rfl

/-- three buses, one of them without load, one with two rows -/
theorem C165_witness : (getPeakData [(2, [5, 6]), (1, [7, 8]), (2, [9, 9])] 3 [1, 2, 3] (1 : Nat)).toOption = some [8, 6, 0] := by decide +kernel

end Pyensys
