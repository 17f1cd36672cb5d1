import Verif.Props.ReduceMore
import Verif.Props.ReduceBranches

/-!
# Reduction of a network to a voltage level: exactly which networks can be reduced (C127)
-/

namespace Pyensys

theorem mapM_succeeds {α β : Type} (f : α → Except PyErr β) : ∀ (l : List α), (∀ a ∈ l, ∃ b, f a = .ok b) → ∃ r, l.mapM f = .ok r := by
  intro l
  induction l with
  | nil => intro _; exact ⟨[], rfl⟩
  | cons a l ih =>
    intro h
    obtain ⟨b, hb⟩ := h a List.mem_cons_self
    obtain ⟨r, hr⟩ := ih (fun a' h' => h a' (List.mem_cons_of_mem _ h'))
    refine ⟨b :: r, ?_⟩
    rw [List.mapM_cons, hb]
    simp only [bind, Except.bind, hr]
    rfl

/-- a bus below the level can reach, over buses below the level, an element that leads to a bus at or above the level -/
def LeadsUp (net : TpNet) (vol : Rat) (tw : Option Rat) (x : Nat) : Prop :=
  ∃ y, LowConn (netView net vol tw) x y ∧ ∃ s el, y ∈ (netView net vol tw).ends s el ∧ ∃ z ∈ (netView net vol tw).ends s el, (netView net vol tw).low z = false

/-- a line between two buses at or above the level -/
def HighLine (net : TpNet) (vol : Rat) (tw : Option Rat) : Prop := ∃ l ∈ net.series .line, ∀ z ∈ l.busPos, (netView net vol tw).low z = false

/-- **C127, the networks for which it holds.** A consistent network is reduced to a voltage level that occurs in it if every bus below the level leads up and some line
lies at or above the level. -/
theorem C127_succeeds_partial (limit : Nat) (net : TpNet) (vol : Rat) (tw : Option Rat) (initBus initLine : Option Int) (hok : NetOk net)
    (hvol : vol ∈ net.buses.map (·.volt)) (hlim : ((List.range net.buses.length).filter (netView net vol tw).low).length < limit)
    (hup : ∀ x, x < net.buses.length → (netView net vol tw).low x = true → LeadsUp net vol tw x) (hline : HighLine net vol tw) :
    ∃ r, reduceNetwork limit net vol tw initBus initLine = .ok r := by
  have hv := netView_ok hok vol tw
  obtain ⟨supers, h1, hs⟩ := findSupernodes_total hv limit hlim
  unfold reduceNetwork
  rw [if_neg (not_not.2 hvol), h1]
  simp only [bind, Except.bind]
  by_cases h0 : supers = []
  · rw [if_pos h0]
    exact ⟨_, rfl⟩
  rw [if_neg h0]
  -- the equivalents
  obtain ⟨qs, hqs⟩ := mapM_succeeds (superEq net) supers (by
    intro S hS
    obtain ⟨x, hx⟩ := List.exists_mem_of_ne_nil _ (hs.nonempty S hS)
    obtain ⟨hxl, hxlow⟩ := (hs.mem x).1 ⟨S, hS, hx⟩
    obtain ⟨y, hy, s, el, hye, z, hz, hzh⟩ := hup x hxl hxlow
    have hyS := (hs.comp S hS x hx y).2 hy
    have hel := (hs.elMem S hS (s, el)).2 ⟨y, hye, hyS⟩
    have hart : (s, el) ∈ S.art := by
      rw [hs.art S hS, List.mem_filter]
      exact ⟨hel, highEnd_isSome.2 ⟨z, hz, hzh⟩⟩
    have hc : S.coupling ≠ [] := by
      intro hc
      have := hs.coupling S hS
      rw [hc] at this
      simp only [List.map_nil] at this
      rw [List.map_eq_nil_iff.1 this.symm] at hart
      simp at hart
    simp only [superEq, if_neg hc]
    exact ⟨_, rfl⟩)
  rw [hqs]
  simp only
  have hel2 : ∀ (s : Series) (k : Nat), k ∈ superEls supers s → ∃ r, removedOf net (s, k) = .ok r := by
    intro s k hk
    obtain ⟨S, hS, hm⟩ := mem_superEls.1 hk
    obtain ⟨x, hx, _⟩ := (hs.elMem S hS (s, k)).1 hm
    simp only [netView] at hx
    cases hl : (net.series s)[k]? with
    | none => rw [hl] at hx; simp at hx
    | some l =>
      obtain ⟨_, _, bx, by', _, _, _, _, hb⟩ := hok.ends s l (List.mem_of_getElem? hl)
      rcases hb with hb | hb <;> (simp only [removedOf, oldEnds, hl, hb]; exact ⟨_, rfl⟩)
  obtain ⟨rem, hrem⟩ := mapM_succeeds (removedOf net) ((superEls supers .line).map (fun (k : Nat) => (Series.line, k)) ++ (superEls supers .trafo).map (fun (k : Nat) => (Series.trafo, k))) (by
    intro e he
    rcases List.mem_append.1 he with he | he
    · obtain ⟨k, hk, rfl⟩ := List.mem_map.1 he
      exact hel2 _ k hk
    · obtain ⟨k, hk, rfl⟩ := List.mem_map.1 he
      exact hel2 _ k hk)
  rw [hrem]
  simp only
  -- a line remains
  have hrest : (deleteSupers net supers).series .line ≠ [] := by
    obtain ⟨l, hl, hz⟩ := hline
    obtain ⟨i, hi⟩ := List.mem_iff_getElem?.1 hl
    rw [Ne, ← List.map_eq_nil_iff (f := fun l : TpLine => l.number), deleteSupers_series net supers .line (fun l : TpLine => l.number) (fun _ _ => rfl), List.map_eq_nil_iff]
    refine List.ne_nil_of_mem (a := l) ?_
    rw [mem_deleteAt]
    refine ⟨i, hi, ?_⟩
    intro hm
    obtain ⟨S, hS, hmS⟩ := mem_superEls.1 hm
    obtain ⟨x, hx, hxS⟩ := (hs.elMem S hS (.line, i)).1 hmS
    simp only [netView, hi] at hx
    have := ((hs.mem x).1 ⟨S, hS, hxS⟩).2
    rw [hz x hx] at this
    cases this
  have hpres : ∃ pres, ((deleteSupers net supers).series .line).zipIdx.mapM preservedOf = .ok pres := by
    apply mapM_succeeds
    rintro ⟨l, i⟩ hm
    have hlm : l ∈ (deleteSupers net supers).series .line := by
      have := List.mem_map_of_mem (f := Prod.fst) hm
      rwa [List.zipIdx_map_fst] at this
    have hb : l.buses ∈ ((deleteSupers net supers).series .line).map (fun l : TpLine => l.buses) := List.mem_map_of_mem hlm
    rw [deleteSupers_series net supers .line (fun l : TpLine => l.buses) (fun _ _ => rfl)] at hb
    obtain ⟨l', hl', e⟩ := List.mem_map.1 hb
    obtain ⟨j, hj, _⟩ := mem_deleteAt.1 hl'
    obtain ⟨_, _, bx, by', _, _, _, _, hb'⟩ := hok.ends .line l' (List.mem_of_getElem? hj)
    rcases hb' with hb' | hb' <;> (simp only [preservedOf, ← e, hb']; exact ⟨_, rfl⟩)
  obtain ⟨pres, hpres⟩ := hpres
  unfold addArtificial
  rw [if_neg (by rintro ⟨h, _⟩; exact hrest h), if_neg hrest]
  simp only [bind, Except.bind, hpres]
  exact ⟨_, rfl⟩

/-- **C127, exactly.** For a consistent network and a voltage level that occurs in it, the reduction succeeds just when there is nothing to reduce, or every bus below
the level leads up and some line lies at or above the level. (The property asks for success in every case.) -/
theorem C127_exactly_partial (limit : Nat) (net : TpNet) (vol : Rat) (tw : Option Rat) (initBus initLine : Option Int) (hok : NetOk net)
    (hvol : vol ∈ net.buses.map (·.volt)) (hlim : ((List.range net.buses.length).filter (netView net vol tw).low).length < limit) :
    (∃ r, reduceNetwork limit net vol tw initBus initLine = .ok r) ↔
      (∀ x, x < net.buses.length → (netView net vol tw).low x = false) ∨
      ((∀ x, x < net.buses.length → (netView net vol tw).low x = true → LeadsUp net vol tw x) ∧ HighLine net vol tw) := by
  constructor
  · rintro ⟨r, hr⟩
    by_cases hall : ∀ x, x < net.buses.length → (netView net vol tw).low x = false
    · exact Or.inl hall
    · right
      push Not at hall
      obtain ⟨x0, hx0, hl0⟩ := hall
      rw [ne_eq, Bool.not_eq_false] at hl0
      constructor
      · intro x hx hlow
        by_contra hno
        have := (C127_fails_violated limit net vol tw initBus initLine hok x hx hlow).1 hvol hlim (by
          intro y hy s el hye z hz
          by_contra hzl
          rw [Bool.not_eq_true] at hzl
          exact hno ⟨y, hy, s, el, hye, z, hz, hzl⟩)
        rw [this] at hr
        cases hr
      · by_contra hno
        refine (C127_fails_violated limit net vol tw initBus initLine hok x0 hx0 hl0).2 ?_ r hr
        intro l hl
        by_contra hz
        push Not at hz
        exact hno ⟨l, hl, fun z hzm => by simpa using hz z hzm⟩
  · rintro (hall | ⟨hup, hline⟩)
    · obtain ⟨supers, h1, hs⟩ := findSupernodes_total (netView_ok hok vol tw) limit hlim
      have h0 : supers = [] := by
        by_contra hne
        obtain ⟨S, hS⟩ := List.exists_mem_of_ne_nil _ hne
        obtain ⟨x, hx⟩ := List.exists_mem_of_ne_nil _ (hs.nonempty S hS)
        obtain ⟨hxl, hxlow⟩ := (hs.mem x).1 ⟨S, hS, hx⟩
        rw [hall x hxl] at hxlow
        cases hxlow
      unfold reduceNetwork
      rw [if_neg (not_not.2 hvol), h1]
      simp only [bind, Except.bind]
      rw [if_pos h0]
      exact ⟨_, rfl⟩
    · exact C127_succeeds_partial limit net vol tw initBus initLine hok hvol hlim hup hline

/-- the hypotheses are met by the network of the other theorems of this chapter: bus 0 (by a transformer), bus 3 (by a line) and bus 4 (over bus 3) lead up -/
example : NetOk exTpNet ∧ (132 : Rat) ∈ exTpNet.buses.map (·.volt) ∧ ((List.range exTpNet.buses.length).filter (netView exTpNet 132 none).low).length < 10 ∧
    (∀ x, x < exTpNet.buses.length → (netView exTpNet 132 none).low x = true → LeadsUp exTpNet 132 none x) ∧ HighLine exTpNet 132 none := by
  refine ⟨exTpNet_ok, by decide +kernel, by decide +kernel, ?_, ?_⟩
  · intro x hx hlow
    have hx' : x = 0 ∨ x = 1 ∨ x = 2 ∨ x = 3 ∨ x = 4 := by
      simp [exTpNet] at hx
      omega
    have h3 : ∃ s el, 3 ∈ (netView exTpNet 132 none).ends s el ∧ ∃ z ∈ (netView exTpNet 132 none).ends s el, (netView exTpNet 132 none).low z = false :=
      ⟨.line, 0, by decide +kernel, 2, by decide +kernel, by decide +kernel⟩
    rcases hx' with rfl | rfl | rfl | rfl | rfl
    · exact ⟨0, Relation.ReflTransGen.refl, .trafo, 0, by decide +kernel, 1, by decide +kernel, by decide +kernel⟩
    · exact absurd hlow (by decide +kernel)
    · exact absurd hlow (by decide +kernel)
    · exact ⟨3, Relation.ReflTransGen.refl, h3⟩
    · exact ⟨3, Relation.ReflTransGen.single ⟨by decide +kernel, by decide +kernel, .line, 2, by decide +kernel, by decide +kernel⟩, h3⟩
  · refine ⟨⟨2, [20, 30], [1, 2], 1, exPar 0⟩, by decide +kernel, ?_⟩
    decide +kernel

end Pyensys
