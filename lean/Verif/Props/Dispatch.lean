import Verif.Model.Dispatch
import Verif.Props.Devices
import Verif.Props.CostCurve
import Mathlib.Data.Rat.Floor

/-!
# Generators, losses, demand and energy conservation of the network engine (C103-C106)
-/

namespace Pyensys

/-! ## C105: numbering of generators -/

/-- a unit that gets a binary variable: positive capacity and positive minimum output -/
def Committed (g : DpGenIn) : Bool := decide (0 < g.max) && decide (0 < g.min)

/-- positions `i < gs.length` of the generators whose bus (the first with that number) is at position `n` -/
def gensAt (numbers : List Int) (gs : List DpGenIn) (n : Nat) : List Nat :=
  (List.range gs.length).filter (fun i => ((gs[i]?).bind (fun g => busAt numbers g.bus)) = some n)

theorem busAt_lt {numbers : List Int} {x : Int} {p : Nat} (h : busAt numbers x = some p) : p < numbers.length := by
  unfold busAt at h
  exact (List.findIdx?_eq_some_iff_getElem.1 h).1

theorem findBus_numbers (numbers : List Int) (x : Int) (p : Nat) :
    findBus (numbers.map (fun n => ({ number := n } : DvBus))) x = .ok p ↔ busAt numbers x = some p := by
  rw [findBus_eq]
  have : (List.map (fun x : DvBus => x.number) (List.map (fun n : Int => ({ number := n } : DvBus)) numbers)) = numbers := by
    simp [Function.comp_def]
  rw [this]
  cases busAt numbers x <;> simp

/-- what one generator gets -/
def GenOk (numbers : List Int) (base : Rat) (res : Bool) (g : DpGenIn) (o : DpGen) (no bin mdt mut' : Nat) : Prop :=
  busAt numbers g.bus = some o.busPos ∧ o.vNGen = no ∧ o.max = g.max / base ∧ o.min = g.min / base ∧
  o.minDown = g.minDown ∧ o.minUp = g.minUp ∧
  o.bin = (if res = false ∧ Committed g = true then some bin else none) ∧
  o.vMDT = (if res = false ∧ Committed g = true ∧ g.minDown.isSome = true then some mdt else none) ∧
  o.vMUT = (if res = false ∧ Committed g = true ∧ g.minUp.isSome = true then some mut' else none)

theorem genStep_spec {numbers : List Int} {base : Rat} {xt xp : Nat} {g : DpGenIn} {s : DpState} {o : DpGen} {s' : DpState}
    (h : genStep numbers base xt xp g s = .ok (o, s')) :
    GenOk numbers base (decide (xt = 2)) g o s.xNo s.xbin s.xMDT s.xMUT ∧
    s'.xNo = s.xNo + 1 ∧
    s'.xbin = s.xbin + (if xt ≠ 2 ∧ Committed g = true then 1 else 0) ∧
    s'.xMDT = s.xMDT + (if xt ≠ 2 ∧ Committed g = true ∧ g.minDown.isSome = true then 1 else 0) ∧
    s'.xMUT = s.xMUT + (if xt ≠ 2 ∧ Committed g = true ∧ g.minUp.isSome = true then 1 else 0) ∧
    s'.buses = s.buses.modify o.busPos (fun l => l ++ [(xt, xp)]) := by
  unfold genStep at h
  rw [except_bind_ok] at h
  obtain ⟨xb, hb, h⟩ := h
  rw [findBus_numbers] at hb
  split at h
  · cases h
  · simp only [Except.ok.injEq, Prod.mk.injEq] at h
    obtain ⟨rfl, rfl⟩ := h
    by_cases hx : xt = 2
    · simp [GenOk, setBin, setTimes, hx, hb]
    · by_cases hc : 0 < g.max ∧ 0 < g.min
      · have hc' : Committed g = true := by simp [Committed, hc]
        cases hd : g.minDown <;> cases hu : g.minUp <;> simp [GenOk, setBin, setTimes, hx, hb, hc, hc', hd, hu]
      · have hc' : Committed g = false := by
          simp only [Committed, Bool.and_eq_false_iff, decide_eq_false_iff_not]
          by_cases h1 : 0 < g.max
          · exact Or.inr (fun h2 => hc ⟨h1, h2⟩)
          · exact Or.inl h1
        simp [GenOk, setBin, setTimes, hx, hb, hc, hc']

/-- counters after the first `i` generators of a class -/
def binCount (xt : Nat) (gs : List DpGenIn) : Nat := gs.countP (fun g => decide (xt ≠ 2) && Committed g)
def downCount (xt : Nat) (gs : List DpGenIn) : Nat := gs.countP (fun g => decide (xt ≠ 2) && (Committed g && g.minDown.isSome))
def upCount (xt : Nat) (gs : List DpGenIn) : Nat := gs.countP (fun g => decide (xt ≠ 2) && (Committed g && g.minUp.isSome))

theorem genClass_spec (numbers : List Int) (base : Rat) (xt : Nat) : ∀ (gs : List DpGenIn) (xp : Nat) (s : DpState)
    (os : List DpGen) (s' : DpState), genClass numbers base xt gs xp s = .ok (os, s') →
    os.length = gs.length ∧ s'.xNo = s.xNo + gs.length ∧ s'.xbin = s.xbin + binCount xt gs ∧
    s'.xMDT = s.xMDT + downCount xt gs ∧ s'.xMUT = s.xMUT + upCount xt gs ∧
    (∀ (i : Nat) (g : DpGenIn), gs[i]? = some g → ∃ o, os[i]? = some o ∧
      GenOk numbers base (decide (xt = 2)) g o (s.xNo + i) (s.xbin + binCount xt (gs.take i))
        (s.xMDT + downCount xt (gs.take i)) (s.xMUT + upCount xt (gs.take i))) ∧
    (∀ (n : Nat) (l : List (Nat × Nat)), s.buses[n]? = some l →
      s'.buses[n]? = some (l ++ (gensAt numbers gs n).map (fun i => (xt, xp + i)))) := by
  intro gs
  induction gs with
  | nil =>
    intro xp s os s' h
    simp only [genClass, Except.ok.injEq, Prod.mk.injEq] at h
    obtain ⟨rfl, rfl⟩ := h
    simp [binCount, downCount, upCount, gensAt]
  | cons g gs ih =>
    intro xp s os s' h
    unfold genClass at h
    rw [except_bind_ok] at h
    obtain ⟨⟨o, s1⟩, h1, h⟩ := h
    rw [except_bind_ok] at h
    obtain ⟨⟨os1, s2⟩, h2, h⟩ := h
    simp only [Except.ok.injEq, Prod.mk.injEq] at h
    obtain ⟨rfl, rfl⟩ := h
    obtain ⟨e1, e2, e3, e4, e5, e6⟩ := genStep_spec h1
    obtain ⟨i1, i2, i3, i4, i5, i6, i7⟩ := ih _ _ _ _ h2
    have cb : ∀ l, binCount xt (g :: l) = (if xt ≠ 2 ∧ Committed g = true then 1 else 0) + binCount xt l := by
      intro l; simp only [binCount, List.countP_cons]; simp; omega
    have cd : ∀ l, downCount xt (g :: l) = (if xt ≠ 2 ∧ Committed g = true ∧ g.minDown.isSome = true then 1 else 0) + downCount xt l := by
      intro l; simp only [downCount, List.countP_cons]; simp; omega
    have cu : ∀ l, upCount xt (g :: l) = (if xt ≠ 2 ∧ Committed g = true ∧ g.minUp.isSome = true then 1 else 0) + upCount xt l := by
      intro l; simp only [upCount, List.countP_cons]; simp; omega
    refine ⟨by simp [i1], by rw [i2, e2, List.length_cons]; omega, by rw [i3, e3, cb]; omega, by rw [i4, e4, cd]; omega,
      by rw [i5, e5, cu]; omega, ?_, ?_⟩
    · intro i g' hi
      cases i with
      | zero =>
        simp only [List.getElem?_cons_zero, Option.some.injEq] at hi
        subst hi
        exact ⟨o, rfl, by simpa [binCount, downCount, upCount] using e1⟩
      | succ i =>
        rw [List.getElem?_cons_succ] at hi
        obtain ⟨o', ho, hg⟩ := i6 i g' hi
        refine ⟨o', by simpa using ho, ?_⟩
        rw [List.take_succ_cons, cb, cd, cu]
        rw [e2, e3, e4, e5] at hg
        rw [show s.xNo + (i + 1) = s.xNo + 1 + i by omega]
        simpa only [Nat.add_assoc] using hg
    · intro n l hn
      have hpos := e1.1
      have hm : s1.buses[n]? = some (if o.busPos = n then l ++ [(xt, xp)] else l) := by
        rw [e6, List.getElem?_modify, hn]
        split <;> simp
      have := i7 n _ hm
      rw [this]
      unfold gensAt
      rw [List.length_cons, List.range_succ_eq_map, List.filter_cons, List.filter_map]
      simp only [List.getElem?_cons_zero, Option.bind_some, hpos, Option.some.injEq]
      have hmap : ∀ l : List Nat, List.map (fun i => (xt, xp + 1 + i)) l = List.map (fun i => (xt, xp + i)) (List.map Nat.succ l) := by
        intro l; rw [List.map_map]; apply List.map_congr_left; intro x _; simp; omega
      by_cases hb : o.busPos = n
      · simp only [hb, if_true, decide_true, List.map_cons, Nat.add_zero, List.append_assoc, List.cons_append, List.nil_append]
        rw [hmap]; rfl
      · simp only [hb, if_false, decide_false, Bool.false_eq_true]
        rw [hmap]; rfl

theorem gensAt_append (numbers : List Int) (a b : List DpGenIn) (n : Nat) :
    gensAt numbers (a ++ b) n = gensAt numbers a n ++ (gensAt numbers b n).map (a.length + ·) := by
  unfold gensAt
  rw [List.length_append, List.range_add, List.filter_append, List.filter_map]
  congr 1
  · apply List.filter_congr
    intro i hi
    rw [List.getElem?_append_left (List.mem_range.1 hi)]
  · congr 1
    apply List.filter_congr
    intro i _
    simp only [Function.comp]
    rw [List.getElem?_append_right (by omega)]
    simp

/-- all of `Generators.initialise` -/
theorem genInitialise_spec {numbers : List Int} {base : Rat} {conv hydro res : List DpGenIn} {r : DpGens}
    (h : genInitialise numbers base conv hydro res = .ok r) :
    r.noGen = (conv ++ hydro ++ res).length ∧ r.classes.flatten.length = (conv ++ hydro ++ res).length ∧
    r.noBin = (conv ++ hydro).countP Committed ∧
    r.noMDT = (conv ++ hydro).countP (fun g => Committed g && g.minDown.isSome) ∧
    r.noMUT = (conv ++ hydro).countP (fun g => Committed g && g.minUp.isSome) ∧
    (∀ (i : Nat) (g : DpGenIn), (conv ++ hydro ++ res)[i]? = some g → ∃ o, r.classes.flatten[i]? = some o ∧
      GenOk numbers base (decide ((conv ++ hydro).length ≤ i)) g o i (((conv ++ hydro).take i).countP Committed)
        (((conv ++ hydro).take i).countP (fun g => Committed g && g.minDown.isSome))
        (((conv ++ hydro).take i).countP (fun g => Committed g && g.minUp.isSome))) ∧
    r.buses.length = numbers.length ∧
    (∀ n < numbers.length, genInBus r n = .ok (gensAt numbers (conv ++ hydro ++ res) n)) := by
  unfold genInitialise at h
  rw [except_bind_ok] at h
  obtain ⟨⟨cls, st⟩, hc, h⟩ := h
  simp only [genClasses] at hc
  rw [except_bind_ok] at hc
  obtain ⟨⟨o0, s0⟩, h0, hc⟩ := hc
  rw [except_bind_ok] at hc
  obtain ⟨⟨q1, st1⟩, hc1, hc⟩ := hc
  rw [except_bind_ok] at hc1
  obtain ⟨⟨o1, s1⟩, h1, hc1⟩ := hc1
  rw [except_bind_ok] at hc1
  obtain ⟨⟨q2, st2⟩, hc2, hc1⟩ := hc1
  rw [except_bind_ok] at hc2
  obtain ⟨⟨o2, s2⟩, h2, hc2⟩ := hc2
  simp only [bind, Except.bind, Except.ok.injEq, Prod.mk.injEq] at hc hc1 hc2
  obtain ⟨rfl, rfl⟩ := hc2
  obtain ⟨rfl, rfl⟩ := hc1
  obtain ⟨rfl, rfl⟩ := hc
  simp only [Except.ok.injEq] at h
  subst h
  obtain ⟨a1, a2, a3, a4, a5, a6, a7⟩ := genClass_spec _ _ _ _ _ _ _ _ h0
  obtain ⟨b1, b2, b3, b4, b5, b6, b7⟩ := genClass_spec _ _ _ _ _ _ _ _ h1
  obtain ⟨c1, c2, c3, c4, c5, c6, c7⟩ := genClass_spec _ _ _ _ _ _ _ _ h2
  simp only [] at a2 a3 a4 a5 a6 a7
  have k0 : ∀ l : List DpGenIn, binCount 0 l = l.countP Committed := by intro l; simp [binCount]
  have k1 : ∀ l : List DpGenIn, binCount 1 l = l.countP Committed := by intro l; simp [binCount]
  have k2 : ∀ l : List DpGenIn, binCount 2 l = 0 := by intro l; simp [binCount]
  have d0 : ∀ l : List DpGenIn, downCount 0 l = l.countP (fun g => Committed g && g.minDown.isSome) := by intro l; simp [downCount]
  have d1 : ∀ l : List DpGenIn, downCount 1 l = l.countP (fun g => Committed g && g.minDown.isSome) := by intro l; simp [downCount]
  have d2 : ∀ l : List DpGenIn, downCount 2 l = 0 := by intro l; simp [downCount]
  have u0 : ∀ l : List DpGenIn, upCount 0 l = l.countP (fun g => Committed g && g.minUp.isSome) := by intro l; simp [upCount]
  have u1 : ∀ l : List DpGenIn, upCount 1 l = l.countP (fun g => Committed g && g.minUp.isSome) := by intro l; simp [upCount]
  have u2 : ∀ l : List DpGenIn, upCount 2 l = 0 := by intro l; simp [upCount]
  simp only [k0, d0, u0, Nat.zero_add] at a2 a3 a4 a5 a6 a7
  simp only [k1, d1, u1] at b3 b4 b5 b6
  simp only [k2, d2, u2, Nat.add_zero] at c3 c4 c5 c6
  have hflat : [o0, o1, o2].flatten = o0 ++ (o1 ++ o2) := by simp
  refine ⟨by simp [c2, b2, a2]; omega, by rw [hflat]; simp [a1, b1, c1], by rw [c3, b3, a3, List.countP_append],
    by rw [c4, b4, a4, List.countP_append], by rw [c5, b5, a5, List.countP_append], ?_, ?_, ?_⟩
  · intro i g hi
    show ∃ o, [o0, o1, o2].flatten[i]? = some o ∧ _
    rw [hflat]
    rcases Nat.lt_or_ge i conv.length with hi0 | hi0
    · rw [List.append_assoc, List.getElem?_append_left hi0] at hi
      obtain ⟨o, ho, hg⟩ := a6 i g hi
      refine ⟨o, by rw [List.getElem?_append_left (by omega), ho], ?_⟩
      have hd : decide ((conv ++ hydro).length ≤ i) = false := by simp; omega
      rw [hd, List.take_append_of_le_length (by omega)]
      exact hg
    · rw [List.append_assoc, List.getElem?_append_right hi0] at hi
      rw [List.getElem?_append_right (by omega), a1]
      rcases Nat.lt_or_ge (i - conv.length) hydro.length with hi1 | hi1
      · rw [List.getElem?_append_left hi1] at hi
        obtain ⟨o, ho, hg⟩ := b6 _ g hi
        refine ⟨o, by rw [List.getElem?_append_left (by omega), ho], ?_⟩
        have hd : decide ((conv ++ hydro).length ≤ i) = false := by simp; omega
        rw [hd, List.take_append, List.take_of_length_le (by omega), List.countP_append, List.countP_append, List.countP_append]
        rw [a2, a3, a4, a5, show conv.length + (i - conv.length) = i by omega] at hg
        exact hg
      · rw [List.getElem?_append_right hi1] at hi
        obtain ⟨o, ho, hg⟩ := c6 _ g hi
        refine ⟨o, by rw [List.getElem?_append_right (by omega), b1, ho], ?_⟩
        have hd : decide ((conv ++ hydro).length ≤ i) = true := by simp; omega
        rw [hd]
        obtain ⟨g1, g2, g3, g4, g5, g6, g7, g8, g9⟩ := hg
        refine ⟨g1, ?_, g3, g4, g5, g6, by simpa using g7, by simpa using g8, by simpa using g9⟩
        rw [g2, b2, a2]; omega
  · have : ∀ (n : Nat), n < numbers.length → ∃ l, s2.buses[n]? = some l := by
      intro n hn
      have q0 : (List.map (fun _ : Int => ([] : List (Nat × Nat))) numbers)[n]? = some [] := by simp [hn]
      exact ⟨_, c7 n _ (b7 n _ (a7 n _ q0))⟩
    -- lengths are preserved
    have len : ∀ (xt : Nat) (gs : List DpGenIn) (xp : Nat) (s : DpState) (os : List DpGen) (s' : DpState),
        genClass numbers base xt gs xp s = .ok (os, s') → s'.buses.length = s.buses.length := by
      intro xt gs
      induction gs with
      | nil => intro xp s os s' h; simp only [genClass, Except.ok.injEq, Prod.mk.injEq] at h; rw [h.2]
      | cons g gs ih =>
        intro xp s os s' h
        unfold genClass at h
        rw [except_bind_ok] at h
        obtain ⟨⟨o, t1⟩, g1, h⟩ := h
        rw [except_bind_ok] at h
        obtain ⟨⟨os1, t2⟩, g2, h⟩ := h
        simp only [Except.ok.injEq, Prod.mk.injEq] at h
        obtain ⟨rfl, rfl⟩ := h
        rw [ih _ _ _ _ g2, (genStep_spec g1).2.2.2.2.2, List.length_modify]
    show s2.buses.length = _
    rw [len _ _ _ _ _ _ h2, len _ _ _ _ _ _ h1, len _ _ _ _ _ _ h0]
    simp
  · intro n hn
    have q0 : (List.map (fun _ : Int => ([] : List (Nat × Nat))) numbers)[n]? = some [] := by simp [hn]
    have q := c7 n _ (b7 n _ (a7 n _ q0))
    simp only [List.nil_append, Nat.zero_add] at q
    unfold genInBus
    rw [(pyGet_nat_iff _ _ _).2 q]
    simp only [bind, Except.bind]
    rw [gensAt_append, gensAt_append]
    have hmem : ∀ (gs : List DpGenIn) (i : Nat), i ∈ gensAt numbers gs n → i < gs.length := by
      intro gs i hi
      exact List.mem_range.1 (List.mem_filter.1 hi).1
    rw [mapM_ok_iff]
    have app : ∀ {α β : Type} {R : α → β → Prop} {x1 x2 : List α} {y1 y2 : List β}, List.Forall₂ R x1 y1 → List.Forall₂ R x2 y2 →
        List.Forall₂ R (x1 ++ x2) (y1 ++ y2) := fun h1 h2 => List.rel_append h1 h2
    refine app (app ?_ ?_) ?_
    · rw [List.forall₂_map_left_iff]
      refine List.forall₂_same.2 fun i hi => ?_
      have hil := hmem _ _ hi
      obtain ⟨o, ho, hg⟩ := a6 i _ (List.getElem?_eq_getElem hil)
      unfold genVar
      rw [(pyGet_nat_iff [o0, o1, o2] 0 o0).2 rfl]
      simp only [bind, Except.bind]
      rw [(pyGet_nat_iff _ _ _).2 ho]
      simp only [hg.2.1]
    · rw [List.forall₂_map_left_iff, List.forall₂_map_right_iff]
      refine List.forall₂_same.2 fun i hi => ?_
      have hil := hmem _ _ hi
      obtain ⟨o, ho, hg⟩ := b6 i _ (List.getElem?_eq_getElem hil)
      unfold genVar
      rw [(pyGet_nat_iff [o0, o1, o2] 1 o1).2 rfl]
      simp only [bind, Except.bind]
      rw [(pyGet_nat_iff _ _ _).2 ho]
      simp only [hg.2.1, a2]
    · rw [List.forall₂_map_left_iff, List.forall₂_map_right_iff]
      refine List.forall₂_same.2 fun i hi => ?_
      have hil := hmem _ _ hi
      obtain ⟨o, ho, hg⟩ := c6 i _ (List.getElem?_eq_getElem hil)
      unfold genVar
      rw [(pyGet_nat_iff [o0, o1, o2] 2 o2).2 rfl]
      simp only [bind, Except.bind]
      rw [(pyGet_nat_iff _ _ _).2 ho]
      simp only [hg.2.1, b2, a2, List.length_append]

/-- **C105**.  Every generator (conventional, then hydropower, then RES) gets the output variable of its position, knows
the position of its bus and its limits per unit; a committed conventional or hydropower unit gets the binary variable
numbered by the committed units before it, and its minimum down (up) time variable is numbered likewise; RES units have
none. -/
theorem C105_variables (numbers : List Int) (base : Rat) (conv hydro res : List DpGenIn) (r : DpGens)
    (h : genInitialise numbers base conv hydro res = .ok r) (i : Nat) (g : DpGenIn)
    (hi : (conv ++ hydro ++ res)[i]? = some g) :
    ∃ o, r.classes.flatten[i]? = some o ∧ o.vNGen = i ∧ i < r.noGen ∧ busAt numbers g.bus = some o.busPos ∧
      o.max = g.max / base ∧ o.min = g.min / base ∧
      (o.bin = if i < (conv ++ hydro).length ∧ 0 < g.max ∧ 0 < g.min then some (((conv ++ hydro).take i).countP Committed) else none) ∧
      (o.vMDT = if i < (conv ++ hydro).length ∧ 0 < g.max ∧ 0 < g.min ∧ g.minDown ≠ none
        then some (((conv ++ hydro).take i).countP (fun g => Committed g && g.minDown.isSome)) else none) ∧
      (o.vMUT = if i < (conv ++ hydro).length ∧ 0 < g.max ∧ 0 < g.min ∧ g.minUp ≠ none
        then some (((conv ++ hydro).take i).countP (fun g => Committed g && g.minUp.isSome)) else none) := by
  obtain ⟨h1, h2, _, _, _, h6, _, _⟩ := genInitialise_spec h
  obtain ⟨o, ho, g1, g2, g3, g4, _, _, g7, g8, g9⟩ := h6 i g hi
  have hil := (List.getElem?_eq_some_iff.1 hi).1
  have hc : (Committed g = true) = (0 < g.max ∧ 0 < g.min) := by simp [Committed]
  have hl : (decide ((conv ++ hydro).length ≤ i) = false) = (i < (conv ++ hydro).length) := by
    rw [decide_eq_false_iff_not, Nat.not_le]
  have hd : ∀ x : Option Nat, (x.isSome = true) = (x ≠ none) := by intro x; cases x <;> simp
  simp only [hc, hl, hd, and_assoc] at g7 g8 g9
  exact ⟨o, ho, g2, by rw [h1]; exact hil, g1, g3, g4, g7, g8, g9⟩

theorem countP_take_lt {α : Type} (p : α → Bool) (l : List α) (i j : Nat) (a : α) (hi : l[i]? = some a) (hp : p a = true) (hij : i < j) :
    (l.take i).countP p < (l.take j).countP p := by
  obtain ⟨hil, rfl⟩ := List.getElem?_eq_some_iff.1 hi
  have h1 : (l.take (i + 1)).countP p = (l.take i).countP p + 1 := by
    rw [List.take_add_one, List.countP_append, hi]
    simp [hp]
  have h2 : (l.take (i + 1)).countP p ≤ (l.take j).countP p := by
    apply List.Sublist.countP_le
    exact (List.take_prefix_take_left hij).sublist
  omega

/-- **C105**.  Different generators never share a binary variable, and every binary variable is declared. -/
theorem C105_distinct (numbers : List Int) (base : Rat) (conv hydro res : List DpGenIn) (r : DpGens)
    (h : genInitialise numbers base conv hydro res = .ok r) (i j : Nat) (a b : DpGen)
    (ha : r.classes.flatten[i]? = some a) (hb : r.classes.flatten[j]? = some b) (x : Nat) (hx : a.bin = some x) :
    x < r.noBin ∧ (b.bin = some x → i = j) := by
  obtain ⟨h1, h2, h3, _, _, h6, _, _⟩ := genInitialise_spec h
  have key : ∀ (i : Nat) (a : DpGen) (x : Nat), r.classes.flatten[i]? = some a → a.bin = some x →
      ∃ g, (conv ++ hydro)[i]? = some g ∧ Committed g = true ∧ x = ((conv ++ hydro).take i).countP Committed := by
    intro i a x ha hx
    have hil := (List.getElem?_eq_some_iff.1 ha).1
    have hi : (conv ++ hydro ++ res)[i]? = some ((conv ++ hydro ++ res)[i]'(by omega)) := List.getElem?_eq_getElem (by omega)
    obtain ⟨o, ho, g1, g2, g3, g4, _, _, g7, g8, g9⟩ := h6 i _ hi
    rw [ha, Option.some.injEq] at ho
    subst ho
    rw [g7] at hx
    split at hx
    · rename_i hc
      have hlt : i < (conv ++ hydro).length := by simpa using hc.1
      refine ⟨_, ?_, hc.2, by simpa using hx.symm⟩
      rw [← hi, List.getElem?_append_left hlt]
    · cases hx
  obtain ⟨g, e1, e2, e3⟩ := key i a x ha hx
  refine ⟨?_, fun hbx => ?_⟩
  · rw [h3, e3]
    have := countP_take_lt Committed (conv ++ hydro) i (conv ++ hydro).length g e1 e2 (List.getElem?_eq_some_iff.1 e1).1
    rwa [List.take_length] at this
  · obtain ⟨g', f1, f2, f3⟩ := key j b x hb hbx
    rcases Nat.lt_trichotomy i j with hij | hij | hij
    · have := countP_take_lt Committed _ i j g e1 e2 hij; omega
    · exact hij
    · have := countP_take_lt Committed _ j i g' f1 f2 hij; omega

/-- **C105**.  The generators reported at a bus are exactly those whose bus it is, in order. -/
theorem C105_at_bus (numbers : List Int) (base : Rat) (conv hydro res : List DpGenIn) (r : DpGens)
    (h : genInitialise numbers base conv hydro res = .ok r) (n : Nat) (hn : n < numbers.length) :
    genInBus r n = .ok ((List.range (conv ++ hydro ++ res).length).filter
      (fun i => (((conv ++ hydro ++ res)[i]?).bind (fun g => busAt numbers g.bus)) = some n)) :=
  (genInitialise_spec h).2.2.2.2.2.2.2 n hn

/-- **C105**.  A generator at an unknown bus raises. -/
theorem C105_unknown_bus (numbers : List Int) (base : Rat) (conv hydro res : List DpGenIn) (g : DpGenIn)
    (hg : g ∈ conv ++ hydro ++ res) (hb : g.bus ∉ numbers) (r : DpGens) :
    genInitialise numbers base conv hydro res ≠ .ok r := by
  intro h
  obtain ⟨_, _, _, _, _, h6, _, _⟩ := genInitialise_spec h
  obtain ⟨i, hi, rfl⟩ := List.mem_iff_getElem.1 hg
  obtain ⟨o, _, g1, _⟩ := h6 i _ (List.getElem?_eq_getElem hi)
  unfold busAt at g1
  obtain ⟨hl, h2, _⟩ := List.findIdx?_eq_some_iff_getElem.1 g1
  rw [decide_eq_true_eq] at h2
  exact hb (h2 ▸ List.getElem_mem hl)

/-! ## C104: losses -/

/-- **C104**.  For a branch of resistance `r ≥ 0`, fixed losses `fix` and a flow `f` with `|f|` between the consecutive
points `a = pts[k]` and `b = pts[k+1]` (points increasing from zero), the admissible losses are exactly those from
`max 0 (fix/base + r·chord)` on, where the chord of the square between `a` and `b` is at least `f²` and exceeds it by at
most `((b-a)/2)²`. -/
theorem C104_losses_partial (pts : List Rat) (xs : Nat → Rat) (n : Nat) (hn : pts.length = n + 1)
    (hpts : ∀ i < n + 1, pts[i]? = some (xs i)) (hx : ∀ i < n, xs i < xs (i + 1)) (h0 : 0 ≤ xs 0)
    (fix base r f : Rat) (hr : 0 ≤ r) (k : Nat) (hk : k < n) (hf : xs k ≤ |f| ∧ |f| ≤ xs (k + 1)) :
    ∃ ch : Rat, (∀ loss, LossOk pts fix base r f loss ↔ 0 ≤ loss ∧ fix / base + r * ch ≤ loss) ∧
      f ^ 2 ≤ ch ∧ ch ≤ f ^ 2 + ((xs (k + 1) - xs k) / 2) ^ 2 := by
  have hpos : ∀ i, i ≤ n → 0 ≤ xs i := by
    intro i
    induction i with
    | zero => intro _; exact h0
    | succ i ih => intro hi; exact le_trans (ih (by omega)) (hx i (by omega)).le
  -- slope of piece i
  have hsl : ∀ i < n, (xs (i + 1) ^ 2 - xs i ^ 2) / (xs (i + 1) - xs i) = xs i + xs (i + 1) := by
    intro i hi
    have : xs (i + 1) - xs i ≠ 0 := by have := hx i hi; intro h; linarith
    rw [div_eq_iff this]; ring
  have htab : ∀ i < n, (lossTable pts)[i]? = some (some (- (xs i * xs (i + 1)), xs i + xs (i + 1))) := by
    intro i hi
    unfold lossTable
    rw [List.getElem?_zipWith, hpts i (by omega), List.getElem?_tail, hpts (i + 1) (by omega)]
    have : ¬ xs (i + 1) - xs i = 0 := by have := hx i hi; intro h; linarith
    simp only [lossLine, if_neg this, hsl i hi]
    congr 3; ring
  have hrule : ∀ i < n, ∀ loss, (lossRules (lossTable pts) fix base r i f loss ↔
      fix / base + r * (-(xs i * xs (i + 1)) + (xs i + xs (i + 1)) * |f|) ≤ loss) := by
    intro i hi loss
    unfold lossRules
    rw [htab i hi]
    simp only []
    have hb : 0 ≤ xs i + xs (i + 1) := add_nonneg (hpos i (by omega)) (hpos (i + 1) (by omega))
    constructor
    · rintro ⟨h1, h2⟩
      rcases abs_cases f with ⟨e, _⟩ | ⟨e, _⟩
      · rw [e]; linarith
      · rw [e]; linarith
    · intro h
      have hm : ∀ g : Rat, g ≤ |f| → loss ≥ fix / base + (-(xs i * xs (i + 1)) + (xs i + xs (i + 1)) * g) * r := by
        intro g hg
        have : r * ((xs i + xs (i + 1)) * g) ≤ r * ((xs i + xs (i + 1)) * |f|) :=
          mul_le_mul_of_nonneg_left (mul_le_mul_of_nonneg_left hg hb) hr
        linarith
      refine ⟨hm f (le_abs_self f), ?_⟩
      have := hm (-f) (neg_le_abs f)
      linarith
  refine ⟨-(xs k * xs (k + 1)) + (xs k + xs (k + 1)) * |f|, fun loss => ?_, ?_, ?_⟩
  · unfold LossOk
    rw [hn, Nat.add_sub_cancel]
    refine and_congr_right fun _ => ⟨fun h => (hrule k hk loss).1 (h k hk), fun h i hi => (hrule i hi loss).2 (le_trans ?_ h)⟩
    have hch : ∀ j < n, chordAt (xs j) (xs j ^ 2) (xs (j + 1)) (xs (j + 1) ^ 2) |f| = -(xs j * xs (j + 1)) + (xs j + xs (j + 1)) * |f| := by
      intro j hj
      unfold chordAt
      rw [hsl j hj]; ring
    have := lines_max xs (fun i => xs i ^ 2) n k hk hx (fun i hi => by
      rw [hsl i (by omega), hsl (i + 1) hi]
      have h1 := hx i (by omega)
      have h2 := hx (i + 1) hi
      show xs i + xs (i + 1) ≤ xs (i + 1) + xs (i + 2)
      have : xs (i + 1) < xs (i + 2) := h2
      linarith) |f| (Or.inl hf.1) (Or.inl hf.2) i hi
    rw [hch i hi, hch k hk] at this
    have := mul_le_mul_of_nonneg_left this hr
    linarith
  · have : 0 ≤ (|f| - xs k) * (xs (k + 1) - |f|) := mul_nonneg (by linarith [hf.1]) (by linarith [hf.2])
    have h2 := sq_abs f
    nlinarith
  · have h2 := sq_abs f
    have : 0 ≤ (|f| - (xs k + xs (k + 1)) / 2) ^ 2 := sq_nonneg _
    nlinarith

/-- **C104**, violated.  Beyond the last point (3 per unit by default) losses below `fix/base + r·f²` are admissible. -/
theorem C104_beyond_violated (pts : List Rat) (xs : Nat → Rat) (n : Nat) (hn : pts.length = n + 1)
    (hpts : ∀ i < n + 1, pts[i]? = some (xs i)) (hx : ∀ i < n, xs i < xs (i + 1)) (h0 : 0 ≤ xs 0)
    (fix base r f : Rat) (hr : 0 < r) (hfix : 0 ≤ fix / base) (hf : xs n < |f|) :
    ∃ loss, LossOk pts fix base r f loss ∧ loss < fix / base + r * f ^ 2 := by
  have hpos : ∀ i, i ≤ n → 0 ≤ xs i := by
    intro i
    induction i with
    | zero => intro _; exact h0
    | succ i ih => intro hi; exact le_trans (ih (by omega)) (hx i (by omega)).le
  have hle : ∀ i m, i ≤ m → m ≤ n → xs i ≤ xs m := by
    intro i m him
    induction m with
    | zero => intro _; rw [Nat.le_zero.1 him]
    | succ m ih =>
      intro hm
      rcases Nat.lt_or_ge i (m + 1) with h | h
      · exact le_trans (ih (by omega) (by omega)) (hx m (by omega)).le
      · rw [show i = m + 1 by omega]
  have hsl : ∀ i < n, (xs (i + 1) ^ 2 - xs i ^ 2) / (xs (i + 1) - xs i) = xs i + xs (i + 1) := by
    intro i hi
    have : xs (i + 1) - xs i ≠ 0 := by have := hx i hi; intro h; linarith
    rw [div_eq_iff this]; ring
  have htab : ∀ i < n, (lossTable pts)[i]? = some (some (- (xs i * xs (i + 1)), xs i + xs (i + 1))) := by
    intro i hi
    unfold lossTable
    rw [List.getElem?_zipWith, hpts i (by omega), List.getElem?_tail, hpts (i + 1) (by omega)]
    have : ¬ xs (i + 1) - xs i = 0 := by have := hx i hi; intro h; linarith
    simp only [lossLine, if_neg this, hsl i hi]
    congr 3; ring
  -- the gap of every piece is at least (|f| - xs n)^2 * r
  refine ⟨fix / base + r * (f ^ 2 - (|f| - xs n) ^ 2), ⟨?_, fun i hi => ?_⟩, ?_⟩
  · have h2 := sq_abs f
    have := hpos n (le_refl _)
    have h3 : f ^ 2 - (|f| - xs n) ^ 2 = xs n * (2 * |f| - xs n) := by rw [← h2]; ring
    rw [h3]
    have : 0 ≤ xs n * (2 * |f| - xs n) := mul_nonneg this (by linarith)
    have := mul_nonneg hr.le this
    linarith
  · rw [hn, Nat.add_sub_cancel] at hi
    unfold lossRules
    rw [htab i hi]
    simp only []
    have e1 := hle i n (by omega) (le_refl _)
    have e2 := hle (i + 1) n (by omega) (le_refl _)
    have h2 := sq_abs f
    have hb : 0 ≤ xs i + xs (i + 1) := add_nonneg (hpos i (by omega)) (hpos (i + 1) (by omega))
    have hgap : -(xs i * xs (i + 1)) + (xs i + xs (i + 1)) * |f| ≤ f ^ 2 - (|f| - xs n) ^ 2 := by
      have : (|f| - xs n) * (|f| - xs n) ≤ (|f| - xs i) * (|f| - xs (i + 1)) :=
        mul_le_mul (by linarith) (by linarith) (by linarith) (by linarith)
      nlinarith
    have hm : ∀ g : Rat, g ≤ |f| → fix / base + r * (f ^ 2 - (|f| - xs n) ^ 2) ≥ fix / base + (-(xs i * xs (i + 1)) + (xs i + xs (i + 1)) * g) * r := by
      intro g hg
      have h3 : (xs i + xs (i + 1)) * g ≤ (xs i + xs (i + 1)) * |f| := mul_le_mul_of_nonneg_left hg hb
      have h4 : r * (-(xs i * xs (i + 1)) + (xs i + xs (i + 1)) * g) ≤ r * (f ^ 2 - (|f| - xs n) ^ 2) :=
        mul_le_mul_of_nonneg_left (by linarith) hr.le
      linarith
    refine ⟨hm f (le_abs_self f), ?_⟩
    have := hm (-f) (neg_le_abs f)
    linarith
  · have : 0 < (|f| - xs n) ^ 2 := pow_pos (by linarith) 2
    have := mul_pos hr this
    linarith

/-! ## C103: conservation of energy -/

theorem pyGet_beyond {α : Type} (l : List α) (n : Nat) (h : l.length ≤ n) : pyGet l (n : Int) = .error .index := by
  have h1 : ¬ ((n : Int) < 0) := by omega
  simp only [pyGet, if_neg h1, Int.toNat_natCast]
  rw [List.getElem?_eq_none h]


/-- summing over the classes of a partition -/
theorem sum_partition {α : Type} (N : Nat) (key : α → Option Nat) (w : α → Rat) : ∀ (l : List α),
    (∀ a ∈ l, ∃ n, n < N ∧ key a = some n) →
    ((List.range N).map (fun n => ((l.filter (fun a => key a = some n)).map w).sum)).sum = (l.map w).sum := by
  intro l
  induction l with
  | nil => intro _; simp
  | cons a l ih =>
    intro h
    obtain ⟨m, hm, hk⟩ := h a List.mem_cons_self
    have ih := ih (fun b hb => h b (List.mem_cons_of_mem _ hb))
    have hpt : (List.range N).map (fun n => (((a :: l).filter (fun a => key a = some n)).map w).sum) =
        (List.range N).map (fun n => (if n = m then w a else 0) + ((l.filter (fun a => key a = some n)).map w).sum) := by
      apply List.map_congr_left
      intro n _
      rw [List.filter_cons, hk]
      by_cases e : n = m
      · subst e; simp
      · have : ¬ m = n := fun q => e q.symm
        simp [e, this]
    rw [hpt, ← gcSum_add, ih, List.map_cons, List.sum_cons]
    congr 1
    have : ∀ M, ((List.range M).map (fun n => if n = m then w a else 0)).sum = if m < M then w a else 0 := by
      intro M
      induction M with
      | zero => simp
      | succ M ihM =>
        rw [List.range_succ, List.map_append, List.sum_append, ihM]
        simp only [List.map_cons, List.map_nil, List.sum_cons, List.sum_nil, add_zero]
        by_cases e : M = m
        · subst e; simp
        · rw [if_neg e]
          by_cases e2 : m < M
          · rw [if_pos e2, if_pos (by omega)]; ring
          · rw [if_neg e2, if_neg (by omega)]; ring
    rw [this, if_pos hm]

/-- a filterMap with a guard, summed -/
theorem sum_filterMap_guard (p : Nat → Prop) [DecidablePred p] (f : Nat → Option Nat) (w : Nat → Rat) : ∀ l : List Nat,
    ((l.filterMap (fun i => if p i then f i else none)).map w).sum =
      ((l.filter (fun i => p i)).map (fun i => ((f i).map w).getD 0)).sum := by
  intro l
  induction l with
  | nil => rfl
  | cons a l ih =>
    rw [List.filterMap_cons, List.filter_cons]
    by_cases h : p a
    · simp only [h, if_true, decide_true]
      cases hf : f a with
      | none => simp [ih, hf]
      | some b => simp [ih, hf]
    · simp only [h, if_false, decide_false]
      simpa using ih

/-- curtailment: one variable for every bus with demand -/
theorem feaLoop_spec (w : Nat → Rat) : ∀ (pd : List Rat) (n : Nat),
    (feaLoop pd n).1.length = pd.length ∧ (feaLoop pd n).2 = n + pd.countP (fun x => decide (0 < x)) ∧
    ((feaLoop pd n).1.map (fun fe => ((List.range fe.1).map (fun _ => w fe.2)).sum)).sum =
      ((List.range (pd.countP (fun x => decide (0 < x)))).map (fun k => w (n + k))).sum := by
  intro pd
  induction pd with
  | nil => intro n; simp [feaLoop]
  | cons x pd ih =>
    intro n
    unfold feaLoop
    by_cases h : x > 0
    · obtain ⟨i1, i2, i3⟩ := ih (n + 1)
      have h' : decide (0 < x) = true := by simpa using h
      simp only [if_pos h, List.length_cons, i1, i2, List.countP_cons, h', if_true, List.map_cons, List.sum_cons, i3,
        List.range_succ_eq_map, List.map_map, true_and]
      refine ⟨by omega, ?_⟩
      simp only [List.range_zero, List.map_nil, List.sum_nil, add_zero]
      congr 2
      apply List.map_congr_left
      intro k _
      simp only [Function.comp]
      congr 1
      omega
    · obtain ⟨i1, i2, i3⟩ := ih n
      have h' : decide (0 < x) = false := by simpa using h
      simp only [if_neg h, List.length_cons, i1, i2, List.countP_cons, h', List.map_cons, List.sum_cons, i3, true_and]
      simp

theorem sum_set (l : List Nat) (w : Nat → Rat) : ∀ (i v x : Nat), l[i]? = some x →
    ((l.set i v).map w).sum = (l.map w).sum - w x + w v := by
  induction l with
  | nil => intro i v x h; simp at h
  | cons a l ih =>
    intro i v x h
    cases i with
    | zero => simp at h; subst h; simp; ring
    | succ i =>
      simp at h
      have := ih i v x h
      rw [List.set_cons_succ, List.map_cons, List.sum_cons, this, List.map_cons, List.sum_cons]; ring

/-- pumps: at different buses all their variables are counted once -/
theorem pumpLoop_spec (w : Nat → Rat) (hw : w 0 = 0) : ∀ (bs : List Int) (k : Nat) (ll ll' : List Nat),
    pumpLoop bs k ll = .ok ll' → bs.Nodup → (∀ b ∈ bs, 1 ≤ b ∧ ll[(b - 1).toNat]? = some 0 ∨ (1 ≤ b ∧ ll.length ≤ (b - 1).toNat)) →
    ll'.length = ll.length ∧
    (ll'.map w).sum = (ll.map w).sum + ((List.range bs.length).map (fun j => w (k + j + 1))).sum := by
  intro bs
  induction bs with
  | nil => intro k ll ll' h _ _; simp only [pumpLoop, Except.ok.injEq] at h; subst h; simp
  | cons b bs ih =>
    intro k ll ll' h hnd hz
    unfold pumpLoop at h
    rw [except_bind_ok] at h
    obtain ⟨l1, h1, h⟩ := h
    have hb := hz b List.mem_cons_self
    have hb1 : 1 ≤ b := by rcases hb with h | h <;> exact h.1
    unfold npAssign at h1
    rw [if_neg (by omega : ¬ (b - 1 < 0))] at h1
    simp only [] at h1
    split at h1
    · cases h1
    · rename_i hr
      simp only [Except.ok.injEq] at h1
      subst h1
      push Not at hr
      have hlt : (b - 1).toNat < ll.length := by omega
      have hb0 : ll[(b - 1).toNat]? = some 0 := by
        rcases hb with h | h
        · exact h.2
        · omega
      rw [List.nodup_cons] at hnd
      obtain ⟨i1, i2⟩ := ih (k + 1) _ ll' h hnd.2 (by
        intro c hc
        have hcb : c ≠ b := fun e => hnd.1 (e ▸ hc)
        have hc' := hz c (List.mem_cons_of_mem _ hc)
        have hc1 : 1 ≤ c := by rcases hc' with h | h <;> exact h.1
        rw [List.getElem?_set_ne (by omega), List.length_set]
        exact hc')
      refine ⟨by rw [i1, List.length_set], ?_⟩
      rw [i2, sum_set ll w _ _ 0 hb0, hw, List.length_cons, List.range_succ_eq_map, List.map_cons, List.sum_cons, List.map_map]
      have : ((fun j => w (k + j + 1)) ∘ Nat.succ) = (fun j => w (k + 1 + j + 1)) := by
        funext j; simp only [Function.comp]; congr 1; omega
      rw [this]
      simp only [Nat.add_zero]
      ring

theorem llPump_sum (w : Nat → Rat) (hw : w 0 = 0) (N : Nat) (bs : List Int) (llp : List Nat) (h : llPump N bs = .ok llp)
    (hnd : bs.Nodup) (h1 : ∀ b ∈ bs, 1 ≤ b) :
    llp.length = N ∧ (llp.map w).sum = ((List.range bs.length).map (fun j => w (j + 1))).sum := by
  obtain ⟨a, b⟩ := pumpLoop_spec w hw bs 0 _ llp h hnd (by
    intro b hb
    rcases Nat.lt_or_ge (b - 1).toNat N with hh | hh
    · exact Or.inl ⟨h1 b hb, by rw [List.getElem?_replicate, if_pos hh]⟩
    · exact Or.inr ⟨h1 b hb, by simpa using hh⟩)
  refine ⟨by simpa using a, ?_⟩
  rw [b]
  simp [hw]

theorem sum_range_getElem (l : List Rat) : ∀ N, N = l.length → ((List.range N).map (fun n => (l[n]?).getD 0)).sum = l.sum := by
  intro N h
  subst h
  congr 1
  apply List.ext_getElem
  · simp
  · intro i h1 h2
    simp [h2]

theorem sum_range_map {α : Type} (l : List α) (f : α → Rat) (d : Rat) : ∀ N, N = l.length →
    ((List.range N).map (fun n => ((l[n]?).map f).getD d)).sum = (l.map f).sum := by
  intro N h
  subst h
  congr 1
  apply List.ext_getElem
  · simp
  · intro i h1 h2
    have : i < l.length := by simpa using h2
    simp [this]

/-- the case whose balances are built: everything initialised from the same data -/
structure CaseOf (numbers : List Int) (brs : List DvBranchIn) (base : Rat) (s : DvSettings) (conv hydro res : List DpGenIn)
    (pd : List Rat) (pumps : List Int) (c : DpCase) : Prop where
  net : dvInitialise numbers brs base s = .ok c.net
  gens : genInitialise numbers base conv hydro res = .ok c.gens
  pump : llPump numbers.length pumps = .ok c.llPump
  fea : c.llFea = (feaLoop pd 0).1
  losses : c.losses = s.losses
  base : c.base = base
  demand : c.demand.length = numbers.length
  pds : pd.length = numbers.length

/-- the sum of the losses at both ends -/
theorem sum_halves (l : List Nat) (w : Nat → Rat) : (l.map (fun x => w x / 2)).sum = (l.map w).sum / 2 := by
  induction l with
  | nil => simp
  | cons a l ih => simp only [List.map_cons, List.sum_cons, ih]; ring

theorem balance_total {numbers : List Int} {brs : List DvBranchIn} {base : Rat} {s : DvSettings} {conv hydro res : List DpGenIn}
    {pd : List Rat} {pumps : List Int} {c : DpCase} (hc : CaseOf numbers brs base s conv hydro res pd pumps c)
    (hnd : pumps.Nodup) (h1 : ∀ b ∈ pumps, 1 ≤ b) (v : DpVals) (hv : v.pump 0 = 0) (xs : Nat) (hxs : xs ≤ c.net.securityNo)
    (lm : Rat) (lf lt : Nat → Rat) (hl : ∀ n < numbers.length, busLosses c v n xs = .ok (lf n, lt n, lm))
    (hb : ∀ n < numbers.length, Balanced c v n xs) :
    ((List.range (conv ++ hydro ++ res).length).map v.gen).sum
      + ((List.range (pd.countP (fun x => decide (0 < x)))).map v.fea).sum =
    lm * c.demand.sum + ((List.range pumps.length).map (fun k => v.pump (k + 1))).sum
      + ((List.range numbers.length).map (fun n => lf n + lt n)).sum := by
  obtain ⟨hcon1, hcon2⟩ := C101_connections_partial _ _ _ _ _ hc.net
  have hgen := fun n hn => C105_at_bus _ _ _ _ _ _ hc.gens n hn
  obtain ⟨hplen, hpsum⟩ := llPump_sum v.pump hv _ _ _ hc.pump hnd h1
  obtain ⟨hflen, _, hfsum⟩ := feaLoop_spec v.fea pd 0
  let G : Nat → Rat := fun n => (((List.range (conv ++ hydro ++ res).length).filter
      (fun i => (((conv ++ hydro ++ res)[i]?).bind (fun g => busAt numbers g.bus)) = some n)).map v.gen).sum
  let FF : Nat → Rat := fun n => (((List.range brs.length).filter
      (fun i => ((brs[i]?).bind (fun br => busAt numbers br.fbus)) = some n)).map (fun i => ((flowVar c.net i xs).map v.flow).getD 0)).sum
  let FT : Nat → Rat := fun n => (((List.range brs.length).filter
      (fun i => ((brs[i]?).bind (fun br => busAt numbers br.tbus)) = some n)).map (fun i => ((flowVar c.net i xs).map v.flow).getD 0)).sum
  have hpt : ∀ n < numbers.length, G n + FT n - lt n = lm * (c.demand[n]?).getD 0
      - ((c.llFea[n]?).map (fun fe => ((List.range fe.1).map (fun _ => v.fea fe.2)).sum)).getD 0
      + ((c.llPump[n]?).map v.pump).getD 0 + FF n + lf n := by
    intro n hn
    obtain ⟨l, r, hs, hlr⟩ := hb n hn
    unfold balanceSides at hs
    rw [hl n hn, hgen n hn, (hcon2 n xs hn hxs).1, (hcon2 n xs hn hxs).2] at hs
    have hd : c.demand[n]? = some (c.demand[n]'(by rw [hc.demand]; exact hn)) := List.getElem?_eq_getElem _
    have hfe : c.llFea[n]? = some (c.llFea[n]'(by rw [hc.fea, hflen, hc.pds]; exact hn)) := List.getElem?_eq_getElem _
    have hpu : c.llPump[n]? = some (c.llPump[n]'(by rw [hplen]; exact hn)) := List.getElem?_eq_getElem _
    simp only [bind, Except.bind] at hs
    rw [(pyGet_nat_iff _ _ _).2 hd, (pyGet_nat_iff _ _ _).2 hfe, (pyGet_nat_iff _ _ _).2 hpu] at hs
    simp only [Except.ok.injEq, Prod.mk.injEq] at hs
    rw [sum_filterMap_guard, sum_filterMap_guard] at hs
    rw [hd, hfe, hpu]
    simp only [Option.getD_some, Option.map_some]
    rw [← hs.1, ← hs.2] at hlr
    exact hlr
  have hsum : ((List.range numbers.length).map (fun n => G n + FT n - lt n)).sum = ((List.range numbers.length).map (fun n => lm * (c.demand[n]?).getD 0
      - ((c.llFea[n]?).map (fun fe => ((List.range fe.1).map (fun _ => v.fea fe.2)).sum)).getD 0
      + ((c.llPump[n]?).map v.pump).getD 0 + FF n + lf n)).sum := by
    congr 1
    apply List.map_congr_left
    intro n hn
    exact hpt n (List.mem_range.1 hn)
  have hmul : ∀ (l : List Nat) (f : Nat → Rat), (l.map (fun n => lm * f n)).sum = lm * (l.map f).sum := by
    intro l f
    induction l with
    | nil => simp
    | cons a l ih => simp only [List.map_cons, List.sum_cons, ih]; ring
  rw [← gcSum_sub, ← gcSum_add, ← gcSum_add, ← gcSum_add, ← gcSum_add, ← gcSum_sub, hmul, sum_range_getElem _ _ hc.demand.symm,
    sum_range_map _ _ _ _ (by rw [hc.fea, hflen, hc.pds]), sum_range_map _ _ _ _ hplen.symm, hpsum] at hsum
  rw [hc.fea, hfsum] at hsum
  rw [← gcSum_add]
  have hG : ((List.range numbers.length).map G).sum = ((List.range (conv ++ hydro ++ res).length).map v.gen).sum := by
    apply sum_partition numbers.length (fun i : Nat => ((conv ++ hydro ++ res)[i]?).bind (fun g => busAt numbers g.bus))
    intro i hi
    have hil := List.mem_range.1 hi
    obtain ⟨o, _, _, _, g1, _⟩ := C105_variables _ _ _ _ _ _ hc.gens i _ (List.getElem?_eq_getElem hil)
    refine ⟨o.busPos, busAt_lt g1, ?_⟩
    rw [List.getElem?_eq_getElem hil]; exact g1
  have hFF : ((List.range numbers.length).map FF).sum = ((List.range brs.length).map (fun i => ((flowVar c.net i xs).map v.flow).getD 0)).sum := by
    apply sum_partition numbers.length (fun i : Nat => (brs[i]?).bind (fun br => busAt numbers br.fbus))
    intro i hi
    have hil := List.mem_range.1 hi
    obtain ⟨b, _, g1, _⟩ := hcon1 i _ (List.getElem?_eq_getElem hil)
    refine ⟨b.fpos, busAt_lt g1, ?_⟩
    rw [List.getElem?_eq_getElem hil]; exact g1
  have hFT : ((List.range numbers.length).map FT).sum = ((List.range brs.length).map (fun i => ((flowVar c.net i xs).map v.flow).getD 0)).sum := by
    apply sum_partition numbers.length (fun i : Nat => (brs[i]?).bind (fun br => busAt numbers br.tbus))
    intro i hi
    have hil := List.mem_range.1 hi
    obtain ⟨b, _, _, g1, _⟩ := hcon1 i _ (List.getElem?_eq_getElem hil)
    refine ⟨b.tpos, busAt_lt g1, ?_⟩
    rw [List.getElem?_eq_getElem hil]; exact g1
  simp only [Nat.zero_add] at hsum
  rw [hG, hFF, hFT] at hsum
  linarith

/-- **C103**, estimated losses.  When the balances of all buses hold, in the intact network or after a contingency, the
energy of all generators and the curtailed demand add up to the demand, the pumps and the losses of the branches. -/
theorem C103_conservation_partial (numbers : List Int) (brs : List DvBranchIn) (base : Rat) (s : DvSettings) (conv hydro res : List DpGenIn)
    (pd : List Rat) (pumps : List Int) (c : DpCase) (hc : CaseOf numbers brs base s conv hydro res pd pumps c)
    (hs : s.losses = true) (hnd : pumps.Nodup) (h1 : ∀ b ∈ pumps, 1 ≤ b) (v : DpVals) (hv : v.pump 0 = 0)
    (xs : Nat) (hxs : xs ≤ c.net.securityNo) (hb : ∀ n < numbers.length, Balanced c v n xs) :
    ((List.range (conv ++ hydro ++ res).length).map v.gen).sum
      + ((List.range (pd.countP (fun x => decide (0 < x)))).map v.fea).sum =
    c.demand.sum + ((List.range pumps.length).map (fun k => v.pump (k + 1))).sum
      + ((List.range brs.length).map v.loss).sum := by
  obtain ⟨_, _, hlen, hbr, hbus⟩ := dvInitialise_spec hc.net
  let LF : Nat → Rat := fun n => (((List.range brs.length).filter
      (fun i => ((brs[i]?).bind (fun br => busAt numbers br.fbus)) = some n)).map (fun i => v.loss i / 2)).sum
  let LT : Nat → Rat := fun n => (((List.range brs.length).filter
      (fun i => ((brs[i]?).bind (fun br => busAt numbers br.tbus)) = some n)).map (fun i => v.loss i / 2)).sum
  have hz : ∀ l : List Nat, l.map (0 + ·) = l := by intro l; simp
  have hl : ∀ n < numbers.length, busLosses c v n xs = .ok (LF n, LT n, 1) := by
    intro n hn
    obtain ⟨b, hb1, _, e1, e2, e3, _⟩ := hbus n _ (List.getElem?_eq_getElem hn)
    unfold busLosses
    rw [if_pos (by rw [hc.losses, hs]), (pyGet_nat_iff _ _ _).2 hb1]
    simp only [bind, Except.bind]
    rw [(e3 hs).1, (e3 hs).2, e1, e2, branchesAt_eq, branchesAt_eq, hz, hz]
  have := balance_total hc hnd h1 v hv xs hxs 1 LF LT hl hb
  rw [this, one_mul, ← gcSum_add]
  have hLF : ((List.range numbers.length).map LF).sum = ((List.range brs.length).map (fun i => v.loss i / 2)).sum := by
    apply sum_partition numbers.length (fun i : Nat => (brs[i]?).bind (fun br => busAt numbers br.fbus))
    intro i hi
    have hil := List.mem_range.1 hi
    obtain ⟨b, _, g1, _⟩ := hbr i _ (List.getElem?_eq_getElem hil)
    refine ⟨b.fpos, busAt_lt g1, ?_⟩
    rw [List.getElem?_eq_getElem hil]; exact g1
  have hLT : ((List.range numbers.length).map LT).sum = ((List.range brs.length).map (fun i => v.loss i / 2)).sum := by
    apply sum_partition numbers.length (fun i : Nat => (brs[i]?).bind (fun br => busAt numbers br.tbus))
    intro i hi
    have hil := List.mem_range.1 hi
    obtain ⟨b, _, _, g1, _⟩ := hbr i _ (List.getElem?_eq_getElem hil)
    refine ⟨b.tpos, busAt_lt g1, ?_⟩
    rw [List.getElem?_eq_getElem hil]; exact g1
  rw [hLF, hLT, sum_halves]
  ring

/-- **C103**, precalculated losses, intact network: the demand is scaled by the loss factor and the fixed losses of every
branch are counted once. -/
theorem C103_precalculated_partial (numbers : List Int) (brs : List DvBranchIn) (base : Rat) (s : DvSettings) (conv hydro res : List DpGenIn)
    (pd : List Rat) (pumps : List Int) (c : DpCase) (hc : CaseOf numbers brs base s conv hydro res pd pumps c)
    (hs : s.losses = false) (hfix : c.fixLoss.length = brs.length) (hnd : pumps.Nodup) (h1 : ∀ b ∈ pumps, 1 ≤ b)
    (v : DpVals) (hv : v.pump 0 = 0) (hb : ∀ n < numbers.length, Balanced c v n 0) :
    ((List.range (conv ++ hydro ++ res).length).map v.gen).sum
      + ((List.range (pd.countP (fun x => decide (0 < x)))).map v.fea).sum =
    (match c.loss with | none => 1 | some l => 1 + l) * c.demand.sum
      + ((List.range pumps.length).map (fun k => v.pump (k + 1))).sum + c.fixLoss.sum / base := by
  obtain ⟨_, _, hlen, hbr, hbus⟩ := dvInitialise_spec hc.net
  obtain ⟨hcon1, hcon2⟩ := C101_connections_partial _ _ _ _ _ hc.net
  have hflow : ∀ i < brs.length, flowVar c.net i 0 = some i := by
    intro i hi
    obtain ⟨b, hb1, _, _, _, _, _, h0, _⟩ := hbr i _ (List.getElem?_eq_getElem hi)
    unfold flowVar
    rw [hb1]; simp [h0]
  have key : ∀ (sel : DvBranchIn → Int) (n : Nat), fixedLosses c ((List.range brs.length).filterMap (fun i =>
        if ((brs[i]?).bind (fun br => busAt numbers (sel br))) = some n then flowVar c.net i 0 else none)) =
      .ok (((List.range brs.length).filter (fun i => ((brs[i]?).bind (fun br => busAt numbers (sel br))) = some n)).map
        (fun i => (c.fixLoss[i]?).getD 0 / base / 2)).sum := by
    intro sel n
    have hfm : ((List.range brs.length).filterMap (fun i =>
        if ((brs[i]?).bind (fun br => busAt numbers (sel br))) = some n then flowVar c.net i 0 else none)) =
        (List.range brs.length).filter (fun i => ((brs[i]?).bind (fun br => busAt numbers (sel br))) = some n) := by
      rw [← List.filterMap_eq_filter]
      apply List.filterMap_congr
      intro i hi
      rw [hflow i (List.mem_range.1 hi)]
      unfold Option.guard
      by_cases h : ((brs[i]?).bind (fun br => busAt numbers (sel br))) = some n <;> simp [h]
    rw [hfm]
    unfold fixedLosses
    rw [mapM_all (fun (xb : Nat) => pyGet c.fixLoss (xb : Int)) (fun i => (c.fixLoss[i]?).getD 0)]
    · simp only [bind, Except.bind, hc.base]
      congr 1
      generalize List.filter _ _ = l
      induction l with
      | nil => simp
      | cons a l ih => simp only [List.map_cons, List.sum_cons, ← ih]; ring
    · intro i hi
      have hi := List.mem_range.1 (List.mem_filter.1 hi).1
      rw [(pyGet_nat_iff _ _ _).2 (List.getElem?_eq_getElem (by omega : i < c.fixLoss.length))]
      simp [hfix, hi]
  let LF : Nat → Rat := fun n => (((List.range brs.length).filter
      (fun i => ((brs[i]?).bind (fun br => busAt numbers br.fbus)) = some n)).map (fun i => (c.fixLoss[i]?).getD 0 / base / 2)).sum
  let LT : Nat → Rat := fun n => (((List.range brs.length).filter
      (fun i => ((brs[i]?).bind (fun br => busAt numbers br.tbus)) = some n)).map (fun i => (c.fixLoss[i]?).getD 0 / base / 2)).sum
  have hl : ∀ n < numbers.length, busLosses c v n 0 = .ok (LF n, LT n, lossFactor c.loss) := by
    intro n hn
    unfold busLosses
    rw [if_neg (by rw [hc.losses, hs]; simp), (hcon2 n 0 hn (by omega)).1, (hcon2 n 0 hn (by omega)).2]
    simp only [bind, Except.bind]
    rw [key (·.fbus) n, key (·.tbus) n]
  have := balance_total hc hnd h1 v hv 0 (by omega) (lossFactor c.loss) LF LT hl hb
  rw [this, ← gcSum_add]
  have hLF : ((List.range numbers.length).map LF).sum = ((List.range brs.length).map (fun i => (c.fixLoss[i]?).getD 0 / base / 2)).sum := by
    apply sum_partition numbers.length (fun i : Nat => (brs[i]?).bind (fun br => busAt numbers br.fbus))
    intro i hi
    have hil := List.mem_range.1 hi
    obtain ⟨b, _, g1, _⟩ := hbr i _ (List.getElem?_eq_getElem hil)
    refine ⟨b.fpos, busAt_lt g1, ?_⟩
    rw [List.getElem?_eq_getElem hil]; exact g1
  have hLT : ((List.range numbers.length).map LT).sum = ((List.range brs.length).map (fun i => (c.fixLoss[i]?).getD 0 / base / 2)).sum := by
    apply sum_partition numbers.length (fun i : Nat => (brs[i]?).bind (fun br => busAt numbers br.tbus))
    intro i hi
    have hil := List.mem_range.1 hi
    obtain ⟨b, _, _, g1, _⟩ := hbr i _ (List.getElem?_eq_getElem hil)
    refine ⟨b.tpos, busAt_lt g1, ?_⟩
    rw [List.getElem?_eq_getElem hil]; exact g1
  rw [hLF, hLT, sum_halves _ (fun i => (c.fixLoss[i]?).getD 0 / base)]
  have hd : ((List.range brs.length).map (fun i => (c.fixLoss[i]?).getD 0 / base)).sum = c.fixLoss.sum / base := by
    rw [← sum_range_getElem c.fixLoss _ hfix.symm]
    generalize List.range brs.length = l
    induction l with
    | nil => simp
    | cons a l ih => simp only [List.map_cons, List.sum_cons, ih]; ring
  rw [hd]
  cases c.loss with
  | none => simp only [lossFactor]; ring
  | some l => simp only [lossFactor]; ring

/-- one step of the loop over the pumps -/
theorem npAssign_spec {l l' : List Nat} {i : Int} {v : Nat} (h : npAssign l i v = .ok l') :
    ∃ j, j < l.length ∧ ((j : Int) = i ∨ (j : Int) = i + l.length) ∧ l' = l.set j v := by
  unfold npAssign at h
  by_cases hi : i < 0
  · simp only [if_pos hi] at h
    split at h
    · cases h
    · rename_i hr
      simp only [Except.ok.injEq] at h
      exact ⟨_, by omega, by omega, h.symm⟩
  · simp only [if_neg hi] at h
    split at h
    · cases h
    · rename_i hr
      simp only [Except.ok.injEq] at h
      exact ⟨_, by omega, by omega, h.symm⟩

/-- a number that is not in the list does not come back later -/
theorem pumpLoop_absent (x : Nat) : ∀ (bs : List Int) (k : Nat) (ll ll' : List Nat), pumpLoop bs k ll = .ok ll' →
    x ∉ ll → x ≤ k → x ∉ ll' := by
  intro bs
  induction bs with
  | nil => intro k ll ll' h hx _; simp only [pumpLoop, Except.ok.injEq] at h; subst h; exact hx
  | cons b bs ih =>
    intro k ll ll' h hx hk
    unfold pumpLoop at h
    rw [except_bind_ok] at h
    obtain ⟨l1, h1, h⟩ := h
    obtain ⟨j, hj, _, rfl⟩ := npAssign_spec h1
    refine ih (k + 1) _ ll' h (fun hm => ?_) (by omega)
    rcases List.mem_or_eq_of_mem_set hm with h | h
    · exact hx h
    · omega

/-- a number only at the position of a pump that comes again is lost -/
theorem pumpLoop_lost (x : Nat) (b : Int) : ∀ (bs : List Int) (k : Nat) (ll ll' : List Nat), pumpLoop bs k ll = .ok ll' →
    (∀ q : Nat, ll[q]? = some x → (q : Int) = b - 1 ∨ (q : Int) = b - 1 + ll.length) → 0 < b ∨ b ≤ 0 → x ≤ k → b ∈ bs → x ∉ ll' := by
  intro bs
  induction bs with
  | nil => intro k ll ll' _ _ _ _ hb; simp at hb
  | cons c bs ih =>
    intro k ll ll' h hq hs hk hb
    unfold pumpLoop at h
    rw [except_bind_ok] at h
    obtain ⟨l1, h1, h⟩ := h
    obtain ⟨j, hj, hjc, rfl⟩ := npAssign_spec h1
    by_cases hcb : c = b
    · subst hcb
      refine pumpLoop_absent x bs (k + 1) _ ll' h (fun hm => ?_) (by omega)
      obtain ⟨q, hq2⟩ := List.mem_iff_getElem?.1 hm
      by_cases hqj : q = j
      · subst hqj
        rw [List.getElem?_set_self hj] at hq2
        have := Option.some.inj hq2
        omega
      · rw [List.getElem?_set_ne (fun e => hqj e.symm)] at hq2
        have h1 := hq q hq2
        have h2 := (List.getElem?_eq_some_iff.1 hq2).1
        omega
    · have hb' : b ∈ bs := by
        rcases List.mem_cons.1 hb with e | e
        · exact absurd e.symm hcb
        · exact e
      refine ih (k + 1) _ ll' h (fun q hq2 => ?_) hs (by omega) hb'
      rw [List.length_set]
      by_cases hqj : q = j
      · subst hqj
        rw [List.getElem?_set_self hj] at hq2
        have := Option.some.inj hq2
        omega
      · rw [List.getElem?_set_ne (fun e => hqj e.symm)] at hq2
        exact hq q hq2

theorem pumpLoop_second (b : Int) : ∀ (bs : List Int) (i j k : Nat) (ll ll' : List Nat), pumpLoop bs k ll = .ok ll' →
    (∀ x ∈ ll, x ≤ k) → bs[i]? = some b → bs[j]? = some b → i < j → k + i + 1 ∉ ll' := by
  intro bs
  induction bs with
  | nil => intro i j k ll ll' _ _ hi; simp at hi
  | cons c bs ih =>
    intro i j k ll ll' h hx hi hj hij
    unfold pumpLoop at h
    rw [except_bind_ok] at h
    obtain ⟨l1, h1, h⟩ := h
    obtain ⟨p, hp, hpc, rfl⟩ := npAssign_spec h1
    obtain ⟨j, rfl⟩ : ∃ m, j = m + 1 := ⟨j - 1, by omega⟩
    rw [List.getElem?_cons_succ] at hj
    cases i with
    | zero =>
      simp only [List.getElem?_cons_zero, Option.some.injEq] at hi
      subst hi
      refine pumpLoop_lost (k + 0 + 1) c bs (k + 1) _ ll' h (fun q hq => ?_) (by omega) (by omega) (List.mem_of_getElem? hj)
      rw [List.length_set]
      by_cases e : q = p
      · subst e; exact hpc
      · rw [List.getElem?_set_ne (fun e' => e e'.symm)] at hq
        have := hx _ (List.mem_of_getElem? hq)
        omega
    | succ i =>
      rw [List.getElem?_cons_succ] at hi
      have := ih i j (k + 1) _ ll' h (fun x hm => by
        rcases List.mem_or_eq_of_mem_set hm with h | h
        · have := hx x h; omega
        · omega) hi hj (by omega)
      rwa [show k + (i + 1) + 1 = k + 1 + i + 1 by omega]

/-- **C103**, violated for pumps.  Of two pumps at one bus the earlier one is in no balance: its consumption can be
changed freely without changing any balance. -/
theorem C103_pump_violated (N : Nat) (pumps : List Int) (c : DpCase) (hp : llPump N pumps = .ok c.llPump) (b : Int) (i j : Nat)
    (hi : pumps[i]? = some b) (hj : pumps[j]? = some b) (hij : i < j) (v : DpVals) (x : Rat) (n xs : Nat) :
    balanceSides c { v with pump := fun k => if k = i + 1 then x else v.pump k } n xs = balanceSides c v n xs := by
  have hnot := pumpLoop_second b pumps i j 0 _ c.llPump hp (by simp) hi hj hij
  rw [Nat.zero_add] at hnot
  have hl : busLosses c { v with pump := fun k => if k = i + 1 then x else v.pump k } n xs = busLosses c v n xs := rfl
  unfold balanceSides
  rw [hl]
  cases busLosses c v n xs with
  | error e => rfl
  | ok ls =>
    simp only [bind, Except.bind]
    cases genInBus c.gens n with
    | error e => rfl
    | ok gs =>
      simp only []
      cases getFlowT c.net n xs with
      | error e => rfl
      | ok ft =>
        simp only []
        cases pyGet c.demand (n : Int) with
        | error e => rfl
        | ok d =>
          simp only []
          cases pyGet c.llFea (n : Int) with
          | error e => rfl
          | ok fe =>
            simp only []
            cases hpu : pyGet c.llPump (n : Int) with
            | error e => rfl
            | ok pu =>
              have hm := List.mem_of_getElem? ((pyGet_nat_iff _ _ _).1 hpu)
              have : ¬ pu = i + 1 := fun e => hnot (e ▸ hm)
              simp only [if_neg this]

/-- **C103**, violated for pumps.  A pump is counted at the bus whose position is its bus number minus one, whatever the
numbers of the buses: the numbers are not even an argument. -/
theorem C103_pump_bus_violated (N : Nat) (b : Int) (h1 : 1 ≤ b) (h2 : b ≤ N) (n : Nat) (hn : n < N) :
    ∃ ll, llPump N [b] = .ok ll ∧ ll[n]? = some (if (n : Int) + 1 = b then 1 else 0) := by
  refine ⟨(List.replicate N 0).set (b - 1).toNat 1, ?_, ?_⟩
  · have hc : ¬ (b - 1 < 0 ∨ (N : Int) ≤ b - 1) := by omega
    simp only [llPump, pumpLoop, npAssign, List.length_replicate, if_neg (by omega : ¬ b - 1 < 0), if_neg hc, bind, Except.bind]
  · rw [List.getElem?_set]
    by_cases e : (n : Int) + 1 = b
    · have : (b - 1).toNat = n := by omega
      simp [this, hn, e]
    · have : ¬ (b - 1).toNat = n := by omega
      rw [if_neg this, if_neg e]
      simp [hn]

/-- **C103**, violated with precalculated losses.  The losses of a contingency are looked up by the number of the flow
variable instead of the branch: as soon as a branch in service leaves the bus, building its balance raises an IndexError. -/
theorem C103_contingency_violated (numbers : List Int) (brs : List DvBranchIn) (base : Rat) (s : DvSettings) (conv hydro res : List DpGenIn)
    (pd : List Rat) (pumps : List Int) (c : DpCase) (hc : CaseOf numbers brs base s conv hydro res pd pumps c)
    (hs : s.losses = false) (hfix : c.fixLoss.length = brs.length) (k : Nat) (hk : k < c.net.securityNo)
    (i : Nat) (br : DvBranchIn) (hi : brs[i]? = some br) (n : Nat) (hn : busAt numbers br.fbus = some n)
    (hf : flowVar c.net i (k + 1) ≠ none) (v : DpVals) :
    balanceSides c v n (k + 1) = .error .index := by
  obtain ⟨hsec, _, hlen, hbr, _⟩ := dvInitialise_spec hc.net
  obtain ⟨_, hcon2⟩ := C101_connections_partial _ _ _ _ _ hc.net
  have hlarge : ∀ j y, j < brs.length → flowVar c.net j (k + 1) = some y → brs.length ≤ y := by
    intro j y hj hy
    obtain ⟨b, hb1, _, _, _, _, _, _, h0⟩ := hbr j _ (List.getElem?_eq_getElem hj)
    rw [hsec] at hk
    have := h0 k _ (List.getElem?_eq_getElem hk)
    unfold flowVar at hy
    rw [hb1] at hy
    simp only [Option.bind_some, this, Option.join_some] at hy
    split at hy
    · cases hy
    · have := Option.some.inj hy; omega
  have hil := (List.getElem?_eq_some_iff.1 hi).1
  have hnl := busAt_lt hn
  have hl : busLosses c v n (k + 1) = .error .index := by
    unfold busLosses
    rw [if_neg (by rw [hc.losses, hs]; simp), (hcon2 n (k + 1) hnl (by omega)).1]
    simp only [bind, Except.bind]
    have herr : ∀ l : List Nat, l ≠ [] → (∀ y ∈ l, brs.length ≤ y) →
        l.mapM (fun (xb : Nat) => pyGet c.fixLoss (xb : Int)) = .error .index := by
      intro l hl hy
      cases l with
      | nil => exact absurd rfl hl
      | cons a l =>
        have ha := hy a List.mem_cons_self
        have : pyGet c.fixLoss (a : Int) = .error .index := pyGet_beyond _ _ (by omega)
        rw [List.mapM_cons, this]
        rfl
    unfold fixedLosses
    rw [herr]
    · rfl
    · obtain ⟨y, hy⟩ := Option.ne_none_iff_exists'.1 hf
      intro he
      have : y ∈ ((List.range brs.length).filterMap (fun i =>
        if ((brs[i]?).bind (fun br => busAt numbers br.fbus)) = some n then flowVar c.net i (k + 1) else none)) := by
        rw [List.mem_filterMap]
        refine ⟨i, List.mem_range.2 hil, ?_⟩
        rw [hi]; simp [hn, hy]
      rw [he] at this
      simp at this
    · intro y hy
      rw [List.mem_filterMap] at hy
      obtain ⟨j, hj, hy⟩ := hy
      split at hy
      · exact hlarge j y (List.mem_range.1 hj) hy
      · cases hy
  unfold balanceSides
  rw [hl]
  rfl

/-! ## C106: demand profiles -/

theorem flatten_get (T : Nat) : ∀ (ps : List (List Rat)), (∀ p ∈ ps, p.length = T) → ∀ (k t : Nat), t < T →
    ps.flatten[k * T + t]? = (ps[k]?).bind (fun p => p[t]?) := by
  intro ps
  induction ps with
  | nil => intro _ k t _; simp
  | cons p ps ih =>
    intro h k t ht
    have hp := h p List.mem_cons_self
    rw [List.flatten_cons]
    cases k with
    | zero => rw [List.getElem?_append_left (by omega)]; simp
    | succ k =>
      rw [List.getElem?_append_right (by rw [hp, Nat.succ_mul]; omega), hp, List.getElem?_cons_succ,
        ← ih (fun q hq => h q (List.mem_cons_of_mem _ hq)) k t ht]
      congr 1
      rw [Nat.succ_mul]; omega

theorem flatten_len (T : Nat) : ∀ (ps : List (List Rat)), (∀ p ∈ ps, p.length = T) → ps.flatten.length = ps.length * T := by
  intro ps
  induction ps with
  | nil => intro _; simp
  | cons p ps ih =>
    intro h
    rw [List.flatten_cons, List.length_append, h p List.mem_cons_self, ih (fun q hq => h q (List.mem_cons_of_mem _ hq)),
      List.length_cons, Nat.succ_mul]
    omega

/-- **C106**.  With the profiles stored one after the other, each with one value per period, the demand of a bus in a
scenario follows the profile it is linked to (numbered from one). -/
theorem C106_profile_partial (ps : List (List Rat)) (T : Nat) (hps : ∀ p ∈ ps, p.length = T) (links : List Int)
    (noBus : Nat) (base lossFix pd : Rat) (xn xt xh l : Nat) (hl : links[xh * noBus + xn]? = some ((l : Int) + 1))
    (p : List Rat) (hp : ps[l]? = some p) (hx : xt < T) :
    demandAt ps.length links ps.flatten T noBus base lossFix pd xn xt xh =
      .ok ((lossFix + pd) / base * p[xt]'(by rw [hps p (List.mem_of_getElem? hp)]; exact hx)) := by
  have hl0 : 0 < ps.length := by have := (List.getElem?_eq_some_iff.1 hp).1; omega
  unfold demandAt busScenario
  rw [if_pos (by omega), (pyGet_nat_iff _ _ _).2 hl]
  simp only [bind, Except.bind]
  rw [if_neg (by omega)]
  have : (xt : Int) + ((l : Int) + 1 - 1) * (T : Int) = ((l * T + xt : Nat) : Int) := by push_cast; ring
  rw [this]
  have hv : ps.flatten[l * T + xt]? = some (p[xt]'(by rw [hps p (List.mem_of_getElem? hp)]; exact hx)) := by
    rw [flatten_get T ps hps l xt hx, hp]
    exact List.getElem?_eq_getElem _
  rw [(pyGet_nat_iff _ _ _).2 hv]

theorem defaultLinks_get (noBus number xn xh : Nat) (hn : xn < noBus) (hh : xh < number) :
    (defaultLinks noBus number)[xh * noBus + xn]? = some ((xh : Int) + 1) := by
  unfold defaultLinks
  have hlt : xh * noBus + xn < noBus * number := by
    have : (xh + 1) * noBus ≤ number * noBus := Nat.mul_le_mul_right _ (by omega)
    rw [Nat.succ_mul] at this
    rw [Nat.mul_comm noBus number]; omega
  rw [List.getElem?_map, List.getElem?_range hlt]
  simp only [Option.map_some, Option.some.injEq]
  have hdiv : (xh * noBus + xn) / noBus = xh := by
    rw [Nat.mul_comm, Nat.mul_add_div (by omega), Nat.div_eq_of_lt hn]; rfl
  split
  · rename_i h
    have : xh = 0 := by
      rcases Nat.eq_zero_or_pos xh with h0 | h0
      · exact h0
      · have : 1 * noBus ≤ xh * noBus := Nat.mul_le_mul_right _ h0
        omega
    subst this; rfl
  · rw [hdiv]

/-- **C106**.  By default scenario `xh` uses profile `xh + 1` at every bus. -/
theorem C106_default_partial (ps : List (List Rat)) (T : Nat) (hps : ∀ p ∈ ps, p.length = T) (noBus number : Nat) (base lossFix pd : Rat)
    (xn xt xh : Nat) (hn : xn < noBus) (hh : xh < number) (p : List Rat) (hp : ps[xh]? = some p) (hx : xt < T) :
    demandAt ps.length (defaultLinks noBus number) ps.flatten T noBus base lossFix pd xn xt xh =
      .ok ((lossFix + pd) / base * p[xt]'(by rw [hps p (List.mem_of_getElem? hp)]; exact hx)) := by
  refine C106_profile_partial ps T hps _ noBus base lossFix pd xn xt xh xh ?_ p hp hx
  exact defaultLinks_get noBus number xn xh hn hh

/-- **C106**, violated.  With fewer profiles than scenarios, the default links of the other scenarios raise an
IndexError. -/
theorem C106_missing_violated (ps : List (List Rat)) (T : Nat) (hps : ∀ p ∈ ps, p.length = T) (noBus number : Nat) (base lossFix pd : Rat)
    (xn xt xh : Nat) (hn : xn < noBus) (hh : xh < number) (h0 : 0 < ps.length) (hp : ps.length ≤ xh) :
    demandAt ps.length (defaultLinks noBus number) ps.flatten T noBus base lossFix pd xn xt xh = .error .index := by
  unfold demandAt busScenario
  rw [if_pos (by omega), (pyGet_nat_iff _ _ _).2 (defaultLinks_get noBus number xn xh hn hh)]
  simp only [bind, Except.bind]
  rw [if_neg (by omega)]
  have : (xt : Int) + ((xh : Int) + 1 - 1) * (T : Int) = ((xh * T + xt : Nat) : Int) := by push_cast; ring
  rw [this]
  have hlen := flatten_len T ps hps
  have : ps.length * T ≤ xh * T := Nat.mul_le_mul_right T hp
  have he : pyGet ps.flatten ((xh * T + xt : Nat) : Int) = .error .index := pyGet_beyond _ _ (by omega)
  rw [he]

/-- **C106**, violated.  A link to profile zero is not rejected: the last profile is used. -/
theorem C106_zero_violated (ps : List (List Rat)) (T : Nat) (hps : ∀ p ∈ ps, p.length = T) (links : List Int)
    (noBus : Nat) (base lossFix pd : Rat) (xn xt xh : Nat) (hl : links[xh * noBus + xn]? = some 0)
    (p : List Rat) (hp : ps.getLast? = some p) (hx : xt < T) :
    ∃ w, p[xt]? = some w ∧ demandAt ps.length links ps.flatten T noBus base lossFix pd xn xt xh = .ok ((lossFix + pd) / base * w) := by
  rw [List.getLast?_eq_getElem?] at hp
  have hlen := (List.getElem?_eq_some_iff.1 hp).1
  have hpl := hps p (List.mem_of_getElem? hp)
  refine ⟨p[xt]'(by omega), List.getElem?_eq_getElem _, ?_⟩
  unfold demandAt busScenario
  rw [if_pos (by omega), (pyGet_nat_iff _ _ _).2 hl]
  simp only [bind, Except.bind]
  rw [if_neg (by omega)]
  have hfl := flatten_len T ps hps
  have hmul : (ps.length - 1) * T + T = ps.length * T := by
    rw [← Nat.succ_mul]; congr 1; omega
  have hget := flatten_get T ps hps (ps.length - 1) xt hx
  rw [hp] at hget
  simp only [Option.bind_some] at hget
  rw [List.getElem?_eq_getElem (by omega : xt < p.length)] at hget
  have he : pyGet ps.flatten ((xt : Int) + (0 - 1) * (T : Int)) = .ok (p[xt]'(by omega)) := by
    have hcond : ¬ (xt : Int) + (0 - 1) * (T : Int) + (ps.flatten.length : Int) < 0 := by omega
    have hneg : (xt : Int) + (0 - 1) * (T : Int) < 0 := by omega
    have hidx : ((xt : Int) + (0 - 1) * (T : Int) + (ps.flatten.length : Int)).toNat = (ps.length - 1) * T + xt := by omega
    simp only [pyGet, if_pos hneg, if_neg hcond, hidx]
    rw [hget]
  rw [he]

/-- **C106**.  Without demand profiles every period uses the first value. -/
theorem C106_no_profiles_partial (links : List Int) (w : Rat) (ws : List Rat) (T noBus : Nat) (base lossFix pd : Rat) (xn xt xh : Nat) :
    demandAt 0 links (w :: ws) T noBus base lossFix pd xn xt xh = .ok ((lossFix + pd) / base * w) := by
  unfold demandAt busScenario
  simp [bind, Except.bind, pyGet]

/-! ## examples -/

/-- three buses, numbered 1, 2, 3; branches 1-2 and 2-3, the second may fail -/
def exDpSettings (losses : Bool) : DvSettings := { securityFlag := false, security := [2], losses := losses, loadType := [] }
def exDpBranches : List DvBranchIn := [⟨1, 2, 100⟩, ⟨2, 3, 50⟩]
def exDpConv : List DpGenIn := [⟨1, 200, 20, some 2, none⟩, ⟨3, 50, 0, none, none⟩]
def exDpRes : List DpGenIn := [⟨3, 30, 10, some 1, some 1⟩]

/-- the case of the example: 10 and 5 per unit demand at buses 2 and 3, a pump at bus 2 -/
def exDpCase (losses : Bool) : Except PyErr DpCase := do
  let net ← dvInitialise [1, 2, 3] exDpBranches 100 (exDpSettings losses)
  let gens ← genInitialise [1, 2, 3] 100 exDpConv [] exDpRes
  let ll ← llPump 3 [2]
  .ok ⟨net, gens, [0, 10, 5], ll, (feaLoop [0, 1000, 500] 0).1, losses, none, [100, 200], 100⟩

/-- a dispatch: flows 14 and 2 (the latter only in the intact network), losses 2 and 4, curtailment 1 at bus 2, pump 1 -/
def exDpVals : DpVals :=
  ⟨fun g => if g = 0 then 15 else if g = 1 then 4 else 2, fun f => if f = 0 then 14 else if f = 1 then 1 else 0,
   fun b => if b = 0 then 2 else 4, fun f => if f = 0 then 1 else 0, fun p => if p = 1 then 1 else 0⟩

/-- the two sides of the balance of bus `n` in scenario `xs` -/
def exDpSides (losses : Bool) (n xs : Nat) : Except PyErr (Rat × Rat) := do
  let c ← exDpCase losses
  balanceSides c exDpVals n xs

theorem exDpCase_of (losses : Bool) : ∃ c, exDpCase losses = .ok c ∧
    CaseOf [1, 2, 3] exDpBranches 100 (exDpSettings losses) exDpConv [] exDpRes [0, 1000, 500] [2] c ∧ c.fixLoss = [100, 200] := by
  have h : (match exDpCase losses with | .ok _ => true | .error _ => false) = true := by cases losses <;> decide +kernel
  cases hc : exDpCase losses with
  | error e => rw [hc] at h; cases h
  | ok c =>
    refine ⟨c, rfl, ?_⟩
    unfold exDpCase at hc
    rw [except_bind_ok] at hc
    obtain ⟨net, h1, hc⟩ := hc
    rw [except_bind_ok] at hc
    obtain ⟨gens, h2, hc⟩ := hc
    rw [except_bind_ok] at hc
    obtain ⟨ll, h3, hc⟩ := hc
    simp only [Except.ok.injEq] at hc
    subst hc
    exact ⟨⟨h1, h2, h3, rfl, rfl, rfl, rfl, rfl⟩, rfl⟩

/-- the intact network of the example is balanced with estimated losses: 15 + 4 + 2 generated and 1 curtailed make up for
a demand of 15, 1 pumped and losses of 6 -/
theorem C103_witness : ∃ c, CaseOf [1, 2, 3] exDpBranches 100 (exDpSettings true) exDpConv [] exDpRes [0, 1000, 500] [2] c ∧
    (∀ n < 3, Balanced c exDpVals n 0) ∧ (15 : Rat) + 4 + 2 + (1 + 0) = c.demand.sum + 1 + (2 + 4) := by
  obtain ⟨c, h, hc, _⟩ := exDpCase_of true
  have hb : ∀ n x, exDpSides true n 0 = .ok (x, x) → Balanced c exDpVals n 0 := by
    intro n x hx
    unfold exDpSides at hx
    rw [h] at hx
    exact ⟨x, x, hx, rfl⟩
  have hall : ∀ n < 3, Balanced c exDpVals n 0 := by
    intro n hn
    rcases (by omega : n = 0 ∨ n = 1 ∨ n = 2) with rfl | rfl | rfl
    · exact hb 0 15 (by decide +kernel)
    · exact hb 1 13 (by decide +kernel)
    · exact hb 2 5 (by decide +kernel)
  refine ⟨c, hc, hall, ?_⟩
  have := C103_conservation_partial _ _ _ _ _ _ _ _ _ c hc rfl (by decide) (by decide) exDpVals rfl 0 (by omega) hall
  have e1 : ((List.range (exDpConv ++ [] ++ exDpRes).length).map exDpVals.gen).sum = 15 + 4 + 2 := by decide +kernel
  have e2 : ((List.range (([0, 1000, 500] : List Rat).countP (fun x => decide (0 < x)))).map exDpVals.fea).sum = 1 + 0 := by decide +kernel
  have e3 : ((List.range ([2] : List Int).length).map (fun k => exDpVals.pump (k + 1))).sum = 1 := by decide +kernel
  have e4 : ((List.range exDpBranches.length).map exDpVals.loss).sum = 2 + 4 := by decide +kernel
  rw [e1, e2, e3, e4] at this
  exact this

/-- with precalculated losses the balance of the first bus after the outage raises -/
theorem C103_contingency_witness : ∃ c, CaseOf [1, 2, 3] exDpBranches 100 (exDpSettings false) exDpConv [] exDpRes [0, 1000, 500] [2] c ∧
    balanceSides c exDpVals 0 1 = .error .index := by
  obtain ⟨c, h, hc, hf⟩ := exDpCase_of false
  have hnet : ∀ net, dvInitialise [1, 2, 3] exDpBranches 100 (exDpSettings false) = .ok net → net.securityNo = 1 ∧ flowVar net 0 1 = some 2 := by
    have : (match dvInitialise [1, 2, 3] exDpBranches 100 (exDpSettings false) with
      | .ok net => decide (net.securityNo = 1 ∧ flowVar net 0 1 = some 2) | .error _ => false) = true := by decide +kernel
    intro net hn
    rw [hn] at this
    simpa using this
  obtain ⟨h1, h2⟩ := hnet _ hc.net
  refine ⟨c, hc, C103_contingency_violated _ _ _ _ _ _ _ _ _ c hc rfl (by rw [hf]; rfl) 0 (by omega) 0 ⟨1, 2, 100⟩ rfl 0 (by decide) ?_ exDpVals⟩
  rw [h2]; simp

/-- two pumps at bus 2: only the second is counted -/
theorem C103_pump_witness : llPump 3 [2, 2] = .ok [0, 2, 0] := by decide

/-- the generators of the example: the RES unit has no commitment variables although it has a minimum output -/
theorem C105_witness : ∃ g, genInitialise [1, 2, 3] 100 exDpConv [] exDpRes = .ok g ∧
    g.classes.flatten.map (fun o => (o.vNGen, o.busPos)) = [(0, 0), (1, 2), (2, 2)] ∧
    g.classes.flatten.map (fun o => o.bin) = [some 0, none, none] ∧ g.classes.flatten.map (fun o => o.vMDT) = [some 0, none, none] := by
  have h : (match genInitialise [1, 2, 3] 100 exDpConv [] exDpRes with
    | .ok g => decide (g.classes.flatten.map (fun o => (o.vNGen, o.busPos)) = [(0, 0), (1, 2), (2, 2)] ∧
      g.classes.flatten.map (fun o => o.bin) = [some 0, none, none] ∧ g.classes.flatten.map (fun o => o.vMDT) = [some 0, none, none])
    | .error _ => false) = true := by decide +kernel
  cases hg : genInitialise [1, 2, 3] 100 exDpConv [] exDpRes with
  | error e => rw [hg] at h; cases h
  | ok g => rw [hg] at h; exact ⟨g, rfl, of_decide_eq_true h⟩

/-- flow 1.5 between the points 1 and 2: the chord is 2.5, the square 2.25 -/
theorem C104_witness : LossOk [0, 1, 2, 3] 10 100 (1 / 10) (-3 / 2) (35 / 100) ∧ ¬ LossOk [0, 1, 2, 3] 10 100 (1 / 10) (-3 / 2) (34 / 100) := by
  have h : ∀ loss, LossOk [0, 1, 2, 3] 10 100 (1 / 10) (-3 / 2) loss ↔ 0 ≤ loss ∧ 35 / 100 ≤ loss := by
    intro loss
    unfold LossOk lossRules lossTable lossLine
    constructor
    · rintro ⟨h0, h⟩
      have := h 1 (by decide)
      norm_num at this
      exact ⟨h0, by linarith [this.2]⟩
    · rintro ⟨h0, h⟩
      refine ⟨h0, fun xL hx => ?_⟩
      rcases (by simp at hx; omega : xL = 0 ∨ xL = 1 ∨ xL = 2) with rfl | rfl | rfl <;> norm_num <;> constructor <;> linarith
  rw [h, h]
  norm_num

/-- two profiles of three periods, two buses, two scenarios -/
theorem C106_witness : demandAt 2 (defaultLinks 2 2) [1, 2, 3, 4, 5, 6] 3 2 100 0 50 1 2 1 = .ok 3 ∧
    demandAt 2 [1, 2, 2, 1] [1, 2, 3, 4, 5, 6] 3 2 100 0 50 1 0 0 = .ok 2 ∧
    demandAt 2 (defaultLinks 2 3) [1, 2, 3, 4, 5, 6] 3 2 100 0 50 1 2 2 = .error .index ∧
    demandAt 2 [0, 0] [1, 2, 3, 4, 5, 6] 3 2 100 0 50 1 2 0 = .ok 3 := by decide +kernel

end Pyensys
