import Verif.Model.Topology
import Verif.Props.AttestOptions
import Mathlib.Logic.Relation
import Mathlib.Data.List.Nodup

/-!
# Reduction of a network to a voltage level: the supernodes (C122)
-/

namespace Pyensys

/-! ## specification -/

/-- a view of a network in which the tables fit: every element has two different buses and is listed at both -/
structure RdOk (v : RdView) : Prop where
  two : ∀ s b el, el ∈ v.inc s b → ∃ x y, x ≠ y ∧ x < v.nBus ∧ y < v.nBus ∧ v.ends s el = [x, y] ∧ (b = x ∨ b = y)
  listed : ∀ s b el, b ∈ v.ends s el → el ∈ v.inc s b

/-- two buses below the voltage level joined by an element -/
def LowAdj (v : RdView) (x y : Nat) : Prop := v.low x = true ∧ v.low y = true ∧ ∃ s el, x ∈ v.ends s el ∧ y ∈ v.ends s el

/-- two buses joined by a path below the voltage level -/
def LowConn (v : RdView) : Nat → Nat → Prop := Relation.ReflTransGen (LowAdj v)

/-- the end of an element at or above the voltage level -/
def highEnd (v : RdView) (e : Series × Nat) : Option Nat := (v.ends e.1 e.2).find? (fun x => !v.low x)

/-! ## the search -/

/-- what is true of every state of the search -/
structure RdInv (v : RdView) (st : RdState) : Prop where
  ends : ∀ s el, st.elFlag s el = true → ∀ x ∈ v.ends s el, st.busFlag x = true
  bus : ∀ x ∈ st.bus, v.low x = true

/-- what a part of the search adds, starting at bus `b` -/
structure RdExt (v : RdView) (b : Nat) (st st' : RdState) (nb : List Nat) (ne : List (Series × Nat)) : Prop where
  isSuper : st'.isSuper = true
  busMono : ∀ x, st.busFlag x = true → st'.busFlag x = true
  elMono : ∀ s el, st.elFlag s el = true → st'.elFlag s el = true
  bus : st'.bus = st.bus ++ nb
  els : st'.els = st.els ++ ne
  nbNodup : nb.Nodup
  nbNew : ∀ x ∈ nb, v.low x = true ∧ st.busFlag x = false ∧ st'.busFlag x = true ∧ LowConn v b x
  nbAll : ∀ x, v.low x = true → st'.busFlag x = true → st.busFlag x = true ∨ x ∈ nb
  neNodup : ne.Nodup
  neNew : ∀ e ∈ ne, st.elFlag e.1 e.2 = false ∧ st'.elFlag e.1 e.2 = true ∧ ∃ x ∈ v.ends e.1 e.2, v.low x = true ∧ LowConn v b x
  neAll : ∀ s el, st'.elFlag s el = true → st.elFlag s el = true ∨ (s, el) ∈ ne
  done : ∀ x ∈ nb, ∀ s el, el ∈ v.inc s x → st'.elFlag s el = true
  art : st'.art = st.art ++ ne.filter (fun e => (highEnd v e).isSome)
  coupling : st'.coupling = st.coupling ++ ne.filterMap (highEnd v)

theorem rdExt_refl {v : RdView} {b : Nat} {st : RdState} (h : st.isSuper = true) : RdExt v b st st [] [] := by
  constructor <;> simp_all

theorem rdExt_trans {v : RdView} {b : Nat} {s1 s2 s3 : RdState} {n1 n2 : List Nat} {e1 e2 : List (Series × Nat)}
    (h1 : RdExt v b s1 s2 n1 e1) (h2 : RdExt v b s2 s3 n2 e2) : RdExt v b s1 s3 (n1 ++ n2) (e1 ++ e2) where
  isSuper := h2.isSuper
  busMono x hx := h2.busMono x (h1.busMono x hx)
  elMono s el hx := h2.elMono s el (h1.elMono s el hx)
  bus := by rw [h2.bus, h1.bus, List.append_assoc]
  els := by rw [h2.els, h1.els, List.append_assoc]
  nbNodup := by
    rw [List.nodup_append]
    refine ⟨h1.nbNodup, h2.nbNodup, ?_⟩
    intro a ha c hc hac
    subst hac
    have a1 := (h1.nbNew a ha).2.2.1
    have a2 := (h2.nbNew a hc).2.1
    rw [a1] at a2
    cases a2
  nbNew x hx := by
    rcases List.mem_append.1 hx with hx | hx
    · obtain ⟨a1, a2, a3, a4⟩ := h1.nbNew x hx
      exact ⟨a1, a2, h2.busMono x a3, a4⟩
    · obtain ⟨a1, a2, a3, a4⟩ := h2.nbNew x hx
      refine ⟨a1, ?_, a3, a4⟩
      cases hf : s1.busFlag x with
      | false => rfl
      | true =>
        rw [h1.busMono x hf] at a2
        cases a2
  nbAll x hl hx := by
    rcases h2.nbAll x hl hx with h | h
    · rcases h1.nbAll x hl h with h | h
      · exact Or.inl h
      · exact Or.inr (List.mem_append_left _ h)
    · exact Or.inr (List.mem_append_right _ h)
  neNodup := by
    rw [List.nodup_append]
    refine ⟨h1.neNodup, h2.neNodup, ?_⟩
    intro a ha c hc hac
    subst hac
    have a1 := (h1.neNew a ha).2.1
    have a2 := (h2.neNew a hc).1
    rw [a1] at a2
    cases a2
  neNew e he := by
    rcases List.mem_append.1 he with he | he
    · obtain ⟨a1, a2, a3⟩ := h1.neNew e he
      exact ⟨a1, h2.elMono _ _ a2, a3⟩
    · obtain ⟨a1, a2, a3⟩ := h2.neNew e he
      refine ⟨?_, a2, a3⟩
      cases hf : s1.elFlag e.1 e.2 with
      | false => rfl
      | true =>
        rw [h1.elMono _ _ hf] at a1
        cases a1
  neAll s el hx := by
    rcases h2.neAll s el hx with h | h
    · rcases h1.neAll s el h with h | h
      · exact Or.inl h
      · exact Or.inr (List.mem_append_left _ h)
    · exact Or.inr (List.mem_append_right _ h)
  done x hx s el hi := by
    rcases List.mem_append.1 hx with hx | hx
    · exact h2.elMono _ _ (h1.done x hx s el hi)
    · exact h2.done x hx s el hi
  art := by rw [h2.art, h1.art, List.filter_append, List.append_assoc]
  coupling := by rw [h2.coupling, h1.coupling, List.filterMap_append, List.append_assoc]

/-- the start of a part of the search may be replaced by a connected bus -/
theorem rdExt_root {v : RdView} {b c : Nat} {s1 s2 : RdState} {n1 : List Nat} {e1 : List (Series × Nat)} (h : RdExt v b s1 s2 n1 e1)
    (hc : LowConn v c b) : RdExt v c s1 s2 n1 e1 :=
  { h with
    nbNew := fun x hx => ⟨(h.nbNew x hx).1, (h.nbNew x hx).2.1, (h.nbNew x hx).2.2.1, hc.trans (h.nbNew x hx).2.2.2⟩
    neNew := fun e he => ⟨(h.neNew e he).1, (h.neNew e he).2.1, by
      obtain ⟨x, a1, a2, a3⟩ := (h.neNew e he).2.2
      exact ⟨x, a1, a2, hc.trans a3⟩⟩ }

/-- buses below the voltage level that have not been visited -/
def unseen (v : RdView) (f : Nat → Bool) : Nat := ((List.range v.nBus).filter (fun x => v.low x && !f x)).length

theorem unseen_mono {v : RdView} {f g : Nat → Bool} (h : ∀ x, f x = true → g x = true) : unseen v g ≤ unseen v f := by
  unfold unseen
  apply List.Sublist.length_le
  apply List.monotone_filter_right
  intro x hx
  simp only [Bool.and_eq_true, Bool.not_eq_true'] at hx ⊢
  refine ⟨hx.1, ?_⟩
  cases hf : f x with
  | false => rfl
  | true =>
    rw [h x hf] at hx
    cases hx.2

theorem unseen_lt {v : RdView} {f : Nat → Bool} {b : Nat} (hb : b < v.nBus) (hl : v.low b = true) (hf : f b = false) :
    unseen v (setFlag f b) < unseen v f := by
  unfold unseen
  rw [← List.countP_eq_length_filter, ← List.countP_eq_length_filter]
  have key : ∀ l : List Nat, b ∈ l → l.countP (fun x => v.low x && !(setFlag f b) x) < l.countP (fun x => v.low x && !f x) := by
    have le : ∀ l : List Nat, l.countP (fun x => v.low x && !(setFlag f b) x) ≤ l.countP (fun x => v.low x && !f x) := by
      intro l
      apply List.countP_mono_left
      intro x _ hx
      simp only [Bool.and_eq_true, Bool.not_eq_true', setFlag] at hx ⊢
      split at hx
      · simp at hx
      · exact hx
    intro l
    induction l with
    | nil => intro h; simp at h
    | cons a l ih =>
      intro h
      rw [List.countP_cons, List.countP_cons]
      by_cases hab : a = b
      · subst hab
        have := le l
        simp only [setFlag, hl, hf, if_true, Bool.not_true, Bool.and_false, Bool.not_false, Bool.and_true, Bool.false_eq_true, if_false]
        unfold setFlag at this
        omega
      · have h' := ih (by simpa [Ne.symm hab] using h)
        have e : (setFlag f b) a = f a := by simp [setFlag, hab]
        rw [e]
        omega
  exact key _ (List.mem_range.2 hb)

/-- what a recursive call does -/
def TrackSpec (v : RdView) (rec : Nat → RdState → Except PyErr RdState) (n : Nat) : Prop :=
  (∀ x st, v.low x = false → st.isSuper = true →
    rec x st = .ok { st with busFlag := setFlag st.busFlag x, coupling := st.coupling ++ [x] }) ∧
  (∀ x st, v.low x = true → x < v.nBus → st.busFlag x = false → RdInv v st → unseen v st.busFlag ≤ n →
    ∃ st' nb ne, rec x st = .ok st' ∧ RdInv v st' ∧ RdExt v x st st' nb ne ∧ x ∈ nb)

theorem endStep_self (v : RdView) (rec : Nat → RdState → Except PyErr RdState) (s : Series) (b el : Nat) (st : RdState) :
    endStep v rec s b el st b = .ok st := by
  simp [endStep]

/-- the two ends of an element: only the other one matters -/
theorem ends_fold {v : RdView} {rec : Nat → RdState → Except PyErr RdState} {s : Series} {b o el : Nat} {st : RdState} {x y : Nat}
    (he : v.ends s el = [x, y]) (hxy : x ≠ y) (hb : b = x ∧ o = y ∨ b = y ∧ o = x) :
    (v.ends s el).foldlM (endStep v rec s b el) st = endStep v rec s b el st o := by
  rw [he]
  rcases hb with ⟨rfl, rfl⟩ | ⟨rfl, rfl⟩
  · simp [List.foldlM_cons, endStep_self, bind, Except.bind]
    cases endStep v rec s b el st o <;> rfl
  · simp [List.foldlM_cons, bind, Except.bind]
    cases h : endStep v rec s b el st o with
    | error e => rfl
    | ok st' =>
      simp only
      rw [endStep_self]

/-- adding one element -/
theorem add_element {v : RdView} {s : Series} {b o el : Nat} {st st' : RdState} {x y : Nat} (he : v.ends s el = [x, y])
    (hb : b = x ∧ o = y ∨ b = y ∧ o = x) (hlow : v.low b = true) (hinv : RdInv v st)
    (hbf : st.busFlag b = true) (hel : st.elFlag s el = false)
    (h1 : ∀ z, st.busFlag z = true → st'.busFlag z = true) (h2 : ∀ z, v.low z = true → st'.busFlag z = true → st.busFlag z = true)
    (h3 : st'.busFlag o = true) (h4 : st'.elFlag = setElFlag st.elFlag s el) (h5 : st'.els = st.els ++ [(s, el)])
    (h6 : st'.bus = st.bus) (h7 : st'.isSuper = true)
    (h8 : if v.low o = true then st'.art = st.art ∧ st'.coupling = st.coupling
      else st'.art = st.art ++ [(s, el)] ∧ st'.coupling = st.coupling ++ [o]) :
    RdInv v st' ∧ RdExt v b st st' [] [(s, el)] ∧ st'.elFlag s el = true := by
  have hflag : st'.elFlag s el = true := by rw [h4]; simp [setElFlag]
  have hmem : ∀ z ∈ v.ends s el, z = b ∨ z = o := by
    intro z hz
    rw [he] at hz
    simp only [List.mem_cons, List.not_mem_nil, or_false] at hz
    rcases hb with ⟨rfl, rfl⟩ | ⟨rfl, rfl⟩ <;> tauto
  have hhigh : highEnd v (s, el) = if v.low o = true then none else some o := by
    unfold highEnd
    simp only [he]
    rcases hb with ⟨rfl, rfl⟩ | ⟨rfl, rfl⟩
    · cases ho : v.low o <;> simp [hlow, ho]
    · cases ho : v.low o <;> simp [hlow, ho]
  refine ⟨⟨?_, ?_⟩, ⟨h7, h1, ?_, by simp [h6], h5, List.nodup_nil, by simp, ?_, List.nodup_singleton _, ?_, ?_, by simp, ?_, ?_⟩, hflag⟩
  · intro t e hte z hz
    rw [h4] at hte
    unfold setElFlag at hte
    by_cases hc : t = s ∧ e = el
    · obtain ⟨rfl, rfl⟩ := hc
      rcases hmem z hz with rfl | rfl
      · exact h1 _ hbf
      · exact h3
    · rw [if_neg hc] at hte
      exact h1 _ (hinv.ends t e hte z hz)
  · rw [h6]
    exact hinv.bus
  · intro t e hte
    rw [h4]
    unfold setElFlag
    split
    · rfl
    · exact hte
  · intro z hz hf
    exact Or.inl (h2 z hz hf)
  · intro e hme
    rw [List.mem_singleton] at hme
    subst hme
    refine ⟨hel, hflag, b, ?_, hlow, Relation.ReflTransGen.refl⟩
    rw [he]
    rcases hb with ⟨rfl, rfl⟩ | ⟨rfl, rfl⟩ <;> simp
  · intro t e hte
    rw [h4] at hte
    unfold setElFlag at hte
    by_cases hc : t = s ∧ e = el
    · obtain ⟨rfl, rfl⟩ := hc
      exact Or.inr (List.mem_singleton.2 rfl)
    · rw [if_neg hc] at hte
      exact Or.inl hte
  · rw [List.filter_cons, hhigh]
    cases ho : v.low o <;> simp [ho] at h8 ⊢
    · exact h8.1
    · exact h8.1
  · rw [List.filterMap_cons, hhigh]
    cases ho : v.low o <;> simp [ho] at h8 ⊢
    · exact h8.2
    · exact h8.2

theorem elStep_spec {v : RdView} (hv : RdOk v) {rec : Nat → RdState → Except PyErr RdState} {n : Nat} (hrec : TrackSpec v rec n)
    {s : Series} {b el : Nat} {st : RdState} (hlow : v.low b = true) (hbf : st.busFlag b = true) (hel : el ∈ v.inc s b) (hinv : RdInv v st)
    (hsup : st.isSuper = true) (hn : unseen v st.busFlag ≤ n) :
    ∃ st' nb ne, elStep v rec s b st el = .ok st' ∧ RdInv v st' ∧ RdExt v b st st' nb ne ∧ st'.elFlag s el = true := by
  unfold elStep
  by_cases hfl : st.elFlag s el = true
  · rw [if_pos hfl]
    exact ⟨st, [], [], rfl, hinv, rdExt_refl hsup, hfl⟩
  · rw [if_neg hfl]
    have hfl' : st.elFlag s el = false := by simpa using hfl
    obtain ⟨x, y, hxy, hx, hy, he, hb⟩ := hv.two s b el hel
    obtain ⟨o, hb, ho⟩ : ∃ o, (b = x ∧ o = y ∨ b = y ∧ o = x) ∧ o < v.nBus := by
      rcases hb with h | h
      · exact ⟨y, Or.inl ⟨h, rfl⟩, hy⟩
      · exact ⟨x, Or.inr ⟨h, rfl⟩, hx⟩
    have hob : o ≠ b := by
      rcases hb with ⟨rfl, rfl⟩ | ⟨rfl, rfl⟩
      · exact hxy.symm
      · exact hxy
    have hbm : b ∈ v.ends s el := by
      rw [he]
      rcases hb with ⟨rfl, rfl⟩ | ⟨rfl, rfl⟩ <;> simp
    have hom : o ∈ v.ends s el := by
      rw [he]
      rcases hb with ⟨rfl, rfl⟩ | ⟨rfl, rfl⟩ <;> simp
    rw [if_neg (by simpa using hbm), ends_fold he hxy hb]
    unfold endStep
    by_cases hof : st.busFlag o = false
    · rw [if_pos ⟨hob, hof⟩]
      by_cases hol : v.low o = true
      · obtain ⟨st', nb, ne, r1, r2, r3, r4⟩ := hrec.2 o st hol ho hof hinv hn
        rw [r1]
        simp only [bind, Except.bind]
        rw [if_neg (by simp [hol])]
        have hf := r3.done o r4 s el (hv.listed s o el hom)
        simp only [hf, if_true]
        refine ⟨st', nb, ne, rfl, r2, rdExt_root r3 (Relation.ReflTransGen.single ⟨hlow, hol, s, el, hbm, hom⟩), hf⟩
      · have hol' : v.low o = false := by simpa using hol
        rw [hrec.1 o st hol' hsup]
        simp only [bind, Except.bind]
        rw [if_pos hol']
        simp only [hfl', Bool.false_eq_true, if_false]
        refine ⟨_, [], [(s, el)], rfl, ?_⟩
        refine add_element he hb hlow hinv hbf hfl' ?_ ?_ ?_ rfl rfl rfl hsup ?_
        · intro z hz
          simp only [setFlag]
          split
          · rfl
          · exact hz
        · intro z hz hf
          simp only [setFlag] at hf
          split at hf
          · rename_i h
            subst h
            rw [hol'] at hz
            cases hz
          · exact hf
        · simp [setFlag]
        · rw [if_neg hol]
          exact ⟨rfl, rfl⟩
    · have hof' : st.busFlag o = true := by simpa using hof
      rw [if_neg (by simp [hof'])]
      by_cases hol : v.low o = true
      · rw [if_neg (by simp [hol])]
        simp only [bind, Except.bind, hfl', Bool.false_eq_true, if_false]
        refine ⟨_, [], [(s, el)], rfl, ?_⟩
        refine add_element he hb hlow hinv hbf hfl' (fun z hz => hz) (fun z _ hf => hf) hof' rfl rfl rfl hsup ?_
        rw [if_pos hol]
        exact ⟨rfl, rfl⟩
      · have hol' : v.low o = false := by simpa using hol
        rw [if_pos ⟨hob, hol', fun hm => by rw [hinv.bus o hm] at hol'; cases hol'⟩]
        simp only [bind, Except.bind, hfl', Bool.false_eq_true, if_false]
        refine ⟨_, [], [(s, el)], rfl, ?_⟩
        refine add_element he hb hlow hinv hbf hfl' (fun z hz => hz) (fun z _ hf => hf) hof' rfl rfl rfl hsup ?_
        rw [if_neg hol]
        exact ⟨rfl, rfl⟩

theorem seriesFold_spec {v : RdView} (hv : RdOk v) {rec : Nat → RdState → Except PyErr RdState} {n : Nat} (hrec : TrackSpec v rec n)
    {s : Series} {b : Nat} (hlow : v.low b = true) : ∀ (l : List Nat) (st : RdState), (∀ el ∈ l, el ∈ v.inc s b) → st.busFlag b = true → RdInv v st →
    st.isSuper = true → unseen v st.busFlag ≤ n →
    ∃ st' nb ne, l.foldlM (elStep v rec s b) st = .ok st' ∧ RdInv v st' ∧ RdExt v b st st' nb ne ∧ ∀ el ∈ l, st'.elFlag s el = true := by
  intro l
  induction l with
  | nil =>
    intro st _ _ hinv hsup _
    exact ⟨st, [], [], rfl, hinv, rdExt_refl hsup, by simp⟩
  | cons el l ih =>
    intro st hl hbf hinv hsup hn
    obtain ⟨s1, n1, e1, a1, a2, a3, a4⟩ := elStep_spec hv hrec hlow hbf (hl el List.mem_cons_self) hinv hsup hn
    obtain ⟨s2, n2, e2, b1, b2, b3, b4⟩ := ih s1 (fun e he => hl e (List.mem_cons_of_mem _ he)) (a3.busMono b hbf) a2 a3.isSuper
      (le_trans (unseen_mono a3.busMono) hn)
    refine ⟨s2, n1 ++ n2, e1 ++ e2, ?_, b2, rdExt_trans a3 b3, ?_⟩
    · rw [List.foldlM_cons, a1]
      exact b1
    · intro e he
      rcases List.mem_cons.1 he with rfl | he
      · exact b3.elMono _ _ a4
      · exact b4 e he

theorem voltageTrack_spec {v : RdView} (hv : RdOk v) : ∀ d, TrackSpec v (voltageTrack v (d + 1)) d := by
  intro d
  induction d with
  | zero =>
    constructor
    · intro x st hx hs
      simp [voltageTrack, hx, hs]
    · intro x st hx hxn hf _ hu
      have := unseen_lt hxn hx hf
      omega
  | succ d ih =>
    constructor
    · intro x st hx hs
      simp [voltageTrack, hx, hs]
    · intro x st hx hxn hf hinv hu
      have hlt := unseen_lt hxn hx hf
      obtain ⟨s0, hs0⟩ : ∃ s0 : RdState, s0 = { st with busFlag := setFlag st.busFlag x, isSuper := true, bus := st.bus ++ [x] } := ⟨_, rfl⟩
      have hbf0 : s0.busFlag x = true := by rw [hs0]; simp [setFlag]
      have hmono0 : ∀ z, st.busFlag z = true → s0.busFlag z = true := by
        intro z hz
        rw [hs0]
        simp only [setFlag]
        split
        · rfl
        · exact hz
      have hinv0 : RdInv v s0 := by
        constructor
        · intro s el h z hz
          rw [hs0] at h
          exact hmono0 z (hinv.ends s el h z hz)
        · intro z hz
          rw [hs0] at hz
          rcases List.mem_append.1 hz with hz | hz
          · exact hinv.bus z hz
          · rw [List.mem_singleton.1 hz]
            exact hx
      have hu0 : unseen v s0.busFlag ≤ d := by rw [hs0]; simp only; omega
      obtain ⟨s1, n1, e1, a1, a2, a3, a4⟩ := seriesFold_spec hv ih (s := .line) hx (v.inc .line x) s0 (fun _ h => h) hbf0 hinv0 (by rw [hs0]) hu0
      obtain ⟨s2, n2, e2, b1, b2, b3, b4⟩ := seriesFold_spec hv ih (s := .trafo) hx (v.inc .trafo x) s1 (fun _ h => h) (a3.busMono x hbf0) a2 a3.isSuper
        (le_trans (unseen_mono a3.busMono) hu0)
      have hext := rdExt_trans a3 b3
      refine ⟨s2, x :: (n1 ++ n2), e1 ++ e2, ?_, b2, ?_, List.mem_cons_self⟩
      · unfold voltageTrack
        rw [if_neg (by simp [hx]), if_neg (by simp [hf]), ← hs0]
        rw [List.foldlM_cons]
        show (seriesStep v (voltageTrack v (d + 1)) x s0 Series.line >>= _) = _
        unfold seriesStep
        rw [a1]
        simp only [bind, Except.bind, List.foldlM_cons, List.foldlM_nil]
        rw [b1]
        rfl
      · have hdone : ∀ s el, el ∈ v.inc s x → s2.elFlag s el = true := by
          intro s el h
          cases s with
          | line => exact b3.elMono _ _ (a4 el h)
          | trafo => exact b4 el h
        refine ⟨hext.isSuper, fun z hz => hext.busMono z (hmono0 z hz), ?_, ?_, ?_, ?_, ?_, ?_, hext.neNodup, ?_, ?_, ?_, ?_, ?_⟩
        · intro s el h
          exact hext.elMono s el (by rw [hs0]; exact h)
        · rw [hext.bus, hs0]
          simp
        · rw [hext.els, hs0]
        · rw [List.nodup_cons]
          refine ⟨?_, hext.nbNodup⟩
          intro hm
          have := (hext.nbNew x hm).2.1
          rw [hbf0] at this
          cases this
        · intro z hz
          rcases List.mem_cons.1 hz with rfl | hz
          · exact ⟨hx, hf, hext.busMono _ hbf0, Relation.ReflTransGen.refl⟩
          · obtain ⟨c1, c2, c3, c4⟩ := hext.nbNew z hz
            refine ⟨c1, ?_, c3, c4⟩
            cases hz' : st.busFlag z with
            | false => rfl
            | true =>
              rw [hmono0 z hz'] at c2
              cases c2
        · intro z hl hz
          rcases hext.nbAll z hl hz with h | h
          · rw [hs0] at h
            simp only [setFlag] at h
            split at h
            · rename_i h'
              rw [h']
              exact Or.inr List.mem_cons_self
            · exact Or.inl h
          · exact Or.inr (List.mem_cons_of_mem _ h)
        · intro e he
          obtain ⟨c1, c2, c3⟩ := hext.neNew e he
          refine ⟨?_, c2, c3⟩
          rw [hs0] at c1
          exact c1
        · intro s el h
          have := hext.neAll s el h
          rw [hs0] at this
          exact this
        · intro z hz s el h
          rcases List.mem_cons.1 hz with rfl | hz
          · exact hdone s el h
          · exact hext.done z hz s el h
        · rw [hext.art, hs0]
        · rw [hext.coupling, hs0]

/-! ## the loop over the buses -/

theorem lowAdj_symm {v : RdView} {x y : Nat} (h : LowAdj v x y) : LowAdj v y x := by
  obtain ⟨a, b, s, el, c, d⟩ := h
  exact ⟨b, a, s, el, d, c⟩

theorem lowConn_symm {v : RdView} {x y : Nat} (h : LowConn v x y) : LowConn v y x := by
  induction h with
  | refl => exact Relation.ReflTransGen.refl
  | tail _ h2 ih => exact Relation.ReflTransGen.head (lowAdj_symm h2) ih

theorem ends_lt {v : RdView} (hv : RdOk v) {s : Series} {el x : Nat} (h : x ∈ v.ends s el) : x < v.nBus := by
  obtain ⟨a, b, _, ha, hb, he, _⟩ := hv.two s x el (hv.listed s x el h)
  rw [he] at h
  simp only [List.mem_cons, List.not_mem_nil, or_false] at h
  rcases h with rfl | rfl
  · exact ha
  · exact hb

theorem lowConn_lt {v : RdView} (hv : RdOk v) {x y : Nat} (hx : x < v.nBus) (h : LowConn v x y) : y < v.nBus := by
  induction h with
  | refl => exact hx
  | tail _ h2 _ =>
    obtain ⟨_, _, s, el, _, hd⟩ := h2
    exact ends_lt hv hd

/-- what a list of supernodes must look like when the buses with the flag have been treated -/
structure LoopInv (v : RdView) (st : RdLoop) : Prop where
  ends : ∀ s el, st.elFlag s el = true → ∀ x ∈ v.ends s el, st.busFlag x = true
  done : ∀ x, v.low x = true → st.busFlag x = true → ∀ s el, el ∈ v.inc s x → st.elFlag s el = true
  lt : ∀ S ∈ st.supers, ∀ x ∈ S.bus, x < v.nBus
  mem : ∀ x, (∃ S ∈ st.supers, x ∈ S.bus) ↔ v.low x = true ∧ st.busFlag x = true
  nodup : (st.supers.flatMap (·.bus)).Nodup
  comp : ∀ S ∈ st.supers, ∀ x ∈ S.bus, ∀ y, y ∈ S.bus ↔ LowConn v x y
  nonempty : ∀ S ∈ st.supers, S.bus ≠ []
  elFlag : ∀ S ∈ st.supers, ∀ e ∈ S.els, st.elFlag e.1 e.2 = true
  elNodup : (st.supers.flatMap (·.els)).Nodup
  elMem : ∀ S ∈ st.supers, ∀ e : Series × Nat, e ∈ S.els ↔ ∃ x ∈ v.ends e.1 e.2, x ∈ S.bus
  art : ∀ S ∈ st.supers, S.art = S.els.filter (fun e => (highEnd v e).isSome)
  coupling : ∀ S ∈ st.supers, S.coupling = S.els.filterMap (highEnd v)

theorem reduceStep_spec {v : RdView} (hv : RdOk v) {d : Nat} {st : RdLoop} (hinv : LoopInv v st) (hn : unseen v st.busFlag ≤ d) {k : Nat}
    (hk : k < v.nBus) : ∃ st', reduceStep v (d + 1) st k = .ok st' ∧ LoopInv v st' ∧ st'.busFlag k = true ∧
      (∀ x, st.busFlag x = true → st'.busFlag x = true) := by
  unfold reduceStep
  by_cases hf : st.busFlag k = true
  · rw [if_pos hf]
    exact ⟨st, rfl, hinv, hf, fun _ h => h⟩
  · rw [if_neg hf]
    have hf' : st.busFlag k = false := by simpa using hf
    by_cases hl : v.low k = true
    · obtain ⟨r, nb, ne, r1, r2, r3, r4⟩ := (voltageTrack_spec hv d).2 k ⟨st.busFlag, st.elFlag, false, [], [], [], []⟩ hl hk hf'
        ⟨hinv.ends, by simp⟩ hn
      rw [r1]
      simp only [bind, Except.bind, r3.isSuper, if_true]
      have eb : r.bus = nb := by rw [r3.bus]; rfl
      have ee : r.els = ne := by rw [r3.els]; rfl
      have ea : r.art = ne.filter (fun e => (highEnd v e).isSome) := by rw [r3.art]; rfl
      have ec : r.coupling = ne.filterMap (highEnd v) := by rw [r3.coupling]; rfl
      rw [eb, ee, ea, ec]
      have hclosed : ∀ x ∈ nb, ∀ y, LowAdj v x y → y ∈ nb := by
        intro x hx y ⟨_, hly, s, el, hxe, hye⟩
        have h1 := r3.done x hx s el (hv.listed s x el hxe)
        rcases r3.nbAll y hly (r2.ends s el h1 y hye) with h | h
        · exfalso
          have h2 := hinv.done y hly h s el (hv.listed s y el hye)
          have h3 := hinv.ends s el h2 x hxe
          have h4 := (r3.nbNew x hx).2.1
          simp only at h4
          rw [h3] at h4
          cases h4
        · exact h
      have hcomp : ∀ x ∈ nb, ∀ y, y ∈ nb ↔ LowConn v x y := by
        intro x hx y
        constructor
        · intro hy
          exact (lowConn_symm (r3.nbNew x hx).2.2.2).trans (r3.nbNew y hy).2.2.2
        · intro h
          induction h with
          | refl => exact hx
          | tail _ h2 ih => exact hclosed _ ih _ h2
      have hnbnew : ∀ x ∈ nb, st.busFlag x = false := fun x hx => (r3.nbNew x hx).2.1
      have hnenew : ∀ e ∈ ne, st.elFlag e.1 e.2 = false := fun e he => (r3.neNew e he).1
      refine ⟨_, rfl, ⟨r2.ends, ?_, ?_, ?_, ?_, ?_, ?_, ?_, ?_, ?_, ?_, ?_⟩, (r3.nbNew k r4).2.2.1, r3.busMono⟩
      · intro x hlx hx s el hel
        rcases r3.nbAll x hlx hx with h | h
        · exact r3.elMono s el (hinv.done x hlx h s el hel)
        · exact r3.done x h s el hel
      · intro S hS x hx
        rcases List.mem_append.1 hS with hS | hS
        · exact hinv.lt S hS x hx
        · rw [List.mem_singleton] at hS
          subst hS
          exact lowConn_lt hv hk (r3.nbNew x hx).2.2.2
      · intro x
        constructor
        · rintro ⟨S, hS, hx⟩
          rcases List.mem_append.1 hS with hS | hS
          · have := (hinv.mem x).1 ⟨S, hS, hx⟩
            exact ⟨this.1, r3.busMono x this.2⟩
          · rw [List.mem_singleton] at hS
            subst hS
            exact ⟨(r3.nbNew x hx).1, (r3.nbNew x hx).2.2.1⟩
        · rintro ⟨hlx, hx⟩
          rcases r3.nbAll x hlx hx with h | h
          · obtain ⟨S, hS, hm⟩ := (hinv.mem x).2 ⟨hlx, h⟩
            exact ⟨S, List.mem_append_left _ hS, hm⟩
          · exact ⟨_, List.mem_append_right _ (List.mem_singleton.2 rfl), h⟩
      · rw [List.flatMap_append, List.nodup_append]
        refine ⟨hinv.nodup, by simpa using r3.nbNodup, ?_⟩
        intro a ha c hc hac
        subst hac
        obtain ⟨S, hS, hm⟩ := List.mem_flatMap.1 ha
        have h1 := ((hinv.mem a).1 ⟨S, hS, hm⟩).2
        have h2 := hnbnew a (by simpa using hc)
        rw [h1] at h2
        cases h2
      · intro S hS
        rcases List.mem_append.1 hS with hS | hS
        · exact hinv.comp S hS
        · rw [List.mem_singleton] at hS
          subst hS
          exact hcomp
      · intro S hS
        rcases List.mem_append.1 hS with hS | hS
        · exact hinv.nonempty S hS
        · rw [List.mem_singleton] at hS
          subst hS
          exact List.ne_nil_of_mem r4
      · intro S hS
        rcases List.mem_append.1 hS with hS | hS
        · exact fun e he => r3.elMono _ _ (hinv.elFlag S hS e he)
        · rw [List.mem_singleton] at hS
          subst hS
          exact fun e he => (r3.neNew e he).2.1
      · rw [List.flatMap_append, List.nodup_append]
        refine ⟨hinv.elNodup, by simpa using r3.neNodup, ?_⟩
        intro a ha c hc hac
        subst hac
        obtain ⟨S, hS, hm⟩ := List.mem_flatMap.1 ha
        have h1 := hinv.elFlag S hS a hm
        have h2 := hnenew a (by simpa using hc)
        rw [h1] at h2
        cases h2
      · intro S hS
        rcases List.mem_append.1 hS with hS | hS
        · exact hinv.elMem S hS
        · rw [List.mem_singleton] at hS
          subst hS
          intro e
          constructor
          · intro he
            obtain ⟨_, _, x, hx, _, hc⟩ := r3.neNew e he
            exact ⟨x, hx, (hcomp k r4 x).2 hc⟩
          · rintro ⟨x, hx, hm⟩
            rcases r3.neAll e.1 e.2 (r3.done x hm e.1 e.2 (hv.listed _ _ _ hx)) with h | h
            · exfalso
              have h1 := hinv.ends e.1 e.2 h x hx
              rw [hnbnew x hm] at h1
              cases h1
            · exact h
      · intro S hS
        rcases List.mem_append.1 hS with hS | hS
        · exact hinv.art S hS
        · rw [List.mem_singleton] at hS
          subst hS
          rfl
      · intro S hS
        rcases List.mem_append.1 hS with hS | hS
        · exact hinv.coupling S hS
        · rw [List.mem_singleton] at hS
          subst hS
          rfl
    · have hl' : v.low k = false := by simpa using hl
      simp only [voltageTrack, hl', if_true, bind, Except.bind, Bool.false_eq_true, if_false]
      have hmono : ∀ x, st.busFlag x = true → setFlag st.busFlag k x = true := by
        intro x hx
        unfold setFlag
        split
        · rfl
        · exact hx
      have hback : ∀ x, v.low x = true → setFlag st.busFlag k x = true → st.busFlag x = true := by
        intro x hlx hx
        unfold setFlag at hx
        split at hx
        · rename_i h
          rw [h, hl'] at hlx
          cases hlx
        · exact hx
      refine ⟨_, rfl, ⟨fun s el h x hx => hmono x (hinv.ends s el h x hx), fun x hlx hx => hinv.done x hlx (hback x hlx hx), hinv.lt, ?_, hinv.nodup,
        hinv.comp, hinv.nonempty, hinv.elFlag, hinv.elNodup, hinv.elMem, hinv.art, hinv.coupling⟩, by simp [setFlag], hmono⟩
      intro x
      rw [hinv.mem x]
      constructor
      · rintro ⟨a, b⟩
        exact ⟨a, hmono x b⟩
      · rintro ⟨a, b⟩
        exact ⟨a, hback x a b⟩

theorem reduceLoop_spec {v : RdView} (hv : RdOk v) {d : Nat} : ∀ (l : List Nat) (st : RdLoop), LoopInv v st → unseen v st.busFlag ≤ d →
    (∀ x ∈ l, x < v.nBus) → ∃ st', l.foldlM (reduceStep v (d + 1)) st = .ok st' ∧ LoopInv v st' ∧
      (∀ x ∈ l, st'.busFlag x = true) ∧ (∀ x, st.busFlag x = true → st'.busFlag x = true) := by
  intro l
  induction l with
  | nil =>
    intro st hinv _ _
    exact ⟨st, rfl, hinv, by simp, fun _ h => h⟩
  | cons k l ih =>
    intro st hinv hn hl
    obtain ⟨s1, a1, a2, a3, a4⟩ := reduceStep_spec hv hinv hn (hl k List.mem_cons_self)
    obtain ⟨s2, b1, b2, b3, b4⟩ := ih s1 a2 (le_trans (unseen_mono a4) hn) (fun x hx => hl x (List.mem_cons_of_mem _ hx))
    refine ⟨s2, ?_, b2, ?_, fun x h => b4 x (a4 x h)⟩
    · rw [List.foldlM_cons, a1]
      exact b1
    · intro x hx
      rcases List.mem_cons.1 hx with rfl | hx
      · exact b4 _ a3
      · exact b3 x hx

/-! ## more nested calls do not change the result -/

/-- the second function does at least what the first one does -/
def RecLe (r1 r2 : Nat → RdState → Except PyErr RdState) : Prop := ∀ b st st', r1 b st = .ok st' → r2 b st = .ok st'

theorem foldlM_le {α β : Type} {f g : β → α → Except PyErr β} (h : ∀ b a b', f b a = .ok b' → g b a = .ok b') : ∀ (l : List α) (b b' : β),
    l.foldlM f b = .ok b' → l.foldlM g b = .ok b' := by
  intro l
  induction l with
  | nil => intro b b' h; exact h
  | cons a l ih =>
    intro b b' hb
    rw [List.foldlM_cons] at hb ⊢
    cases hf : f b a with
    | error e => rw [hf] at hb; cases hb
    | ok c =>
      rw [hf] at hb
      rw [h _ _ _ hf]
      exact ih c b' hb

theorem endStep_le {v : RdView} {r1 r2 : Nat → RdState → Except PyErr RdState} (h : RecLe r1 r2) {s : Series} {b el : Nat} (st : RdState) (x : Nat) (st' : RdState)
    (hs : endStep v r1 s b el st x = .ok st') : endStep v r2 s b el st x = .ok st' := by
  unfold endStep at hs ⊢
  by_cases hc : x ≠ b ∧ st.busFlag x = false
  · rw [if_pos hc] at hs ⊢
    cases hr : r1 x st with
    | error e => rw [hr] at hs; cases hs
    | ok q =>
      rw [hr] at hs
      rw [h _ _ _ hr]
      exact hs
  · rw [if_neg hc] at hs ⊢
    exact hs

theorem elStep_le {v : RdView} {r1 r2 : Nat → RdState → Except PyErr RdState} (h : RecLe r1 r2) {s : Series} {b : Nat} (st : RdState) (el : Nat) (st' : RdState)
    (hs : elStep v r1 s b st el = .ok st') : elStep v r2 s b st el = .ok st' := by
  unfold elStep at hs ⊢
  split at hs
  · rename_i hc
    rw [if_pos hc]
    exact hs
  · rename_i hc
    rw [if_neg hc]
    split at hs
    · cases hs
    · rename_i hd
      rw [if_neg hd]
      cases hr : (v.ends s el).foldlM (endStep v r1 s b el) st with
      | error e => rw [hr] at hs; cases hs
      | ok q =>
        rw [hr] at hs
        rw [foldlM_le (fun b a b' => endStep_le h b a b') _ _ _ hr]
        exact hs

theorem voltageTrack_mono (v : RdView) : ∀ d, RecLe (voltageTrack v d) (voltageTrack v (d + 1)) := by
  intro d
  induction d with
  | zero => intro b st st' h; cases h
  | succ d ih =>
    intro b st st' h
    unfold voltageTrack at h ⊢
    split at h
    · rename_i hc
      rw [if_pos hc]
      exact h
    · rename_i hc
      rw [if_neg hc]
      split at h
      · rename_i hd
        rw [if_pos hd]
        exact h
      · rename_i hd
        rw [if_neg hd]
        refine foldlM_le ?_ _ _ _ h
        intro q s q' hq
        exact foldlM_le (fun b a b' => elStep_le ih b a b') _ _ _ hq

theorem findSupernodes_mono {v : RdView} {d : Nat} {r : List Supernode} (h : findSupernodes v d = .ok r) (k : Nat) : findSupernodes v (d + k) = .ok r := by
  induction k with
  | zero => exact h
  | succ k ih =>
    unfold findSupernodes at ih ⊢
    cases hr : (List.range v.nBus).foldlM (reduceStep v (d + k)) ⟨fun _ => false, fun _ _ => false, []⟩ with
    | error e => rw [hr] at ih; cases ih
    | ok q =>
      rw [hr] at ih
      rw [foldlM_le (g := reduceStep v (d + (k + 1))) ?_ _ _ _ hr]
      · exact ih
      · intro b a b' hb
        unfold reduceStep at hb ⊢
        split at hb
        · rename_i hc
          rw [if_pos hc]
          exact hb
        · rename_i hc
          rw [if_neg hc]
          cases hv : voltageTrack v (d + k) a ⟨b.busFlag, b.elFlag, false, [], [], [], []⟩ with
          | error e => rw [hv] at hb; cases hb
          | ok q =>
            rw [hv] at hb
            rw [show d + (k + 1) = d + k + 1 by omega, voltageTrack_mono v (d + k) _ _ _ hv]
            exact hb

/-! ## the theorem -/

/-- the supernodes of a view: see the statement of C122 -/
structure SupersOf (v : RdView) (supers : List Supernode) : Prop where
  mem : ∀ x, (∃ S ∈ supers, x ∈ S.bus) ↔ x < v.nBus ∧ v.low x = true
  nodup : (supers.flatMap (·.bus)).Nodup
  nonempty : ∀ S ∈ supers, S.bus ≠ []
  comp : ∀ S ∈ supers, ∀ x ∈ S.bus, ∀ y, y ∈ S.bus ↔ LowConn v x y
  elNodup : (supers.flatMap (·.els)).Nodup
  elMem : ∀ S ∈ supers, ∀ e : Series × Nat, e ∈ S.els ↔ ∃ x ∈ v.ends e.1 e.2, x ∈ S.bus
  art : ∀ S ∈ supers, S.art = S.els.filter (fun e => (highEnd v e).isSome)
  coupling : ∀ S ∈ supers, S.coupling.map some = S.art.map (highEnd v)

theorem findSupernodes_total {v : RdView} (hv : RdOk v) (limit : Nat) (hlim : ((List.range v.nBus).filter v.low).length < limit) :
    ∃ supers, findSupernodes v limit = .ok supers ∧ SupersOf v supers := by
  obtain ⟨d, rfl⟩ : ∃ d, limit = d + 1 := ⟨limit - 1, by omega⟩
  have h0 : LoopInv v ⟨fun _ => false, fun _ _ => false, []⟩ := by
    constructor <;> simp
  have hu : unseen v (fun _ => false) ≤ d := by
    unfold unseen
    simp only [Bool.not_false, Bool.and_true]
    exact Nat.lt_succ_iff.1 hlim
  obtain ⟨st, a1, a2, a3, _⟩ := reduceLoop_spec hv (List.range v.nBus) _ h0 hu (by simp)
  refine ⟨st.supers, ?_, ?_, a2.nodup, a2.nonempty, a2.comp, a2.elNodup, a2.elMem, a2.art, ?_⟩
  · unfold findSupernodes
    rw [a1]
    rfl
  · intro x
    rw [a2.mem]
    constructor
    · rintro ⟨hl, hf⟩
      obtain ⟨S, hS, hx⟩ := (a2.mem x).2 ⟨hl, hf⟩
      exact ⟨a2.lt S hS x hx, hl⟩
    · rintro ⟨hx, hl⟩
      exact ⟨hl, a3 x (List.mem_range.2 hx)⟩
  · intro S hS
    rw [a2.coupling S hS, a2.art S hS]
    generalize S.els = l
    induction l with
    | nil => rfl
    | cons e l ih =>
      rw [List.filterMap_cons, List.filter_cons]
      cases h : highEnd v e with
      | none => simpa using ih
      | some o => simpa [h] using ih

theorem findSupernodes_of_ok {v : RdView} (hv : RdOk v) {limit : Nat} {supers : List Supernode} (h : findSupernodes v limit = .ok supers) : SupersOf v supers := by
  obtain ⟨r, h1, h2⟩ := findSupernodes_total hv (limit + (((List.range v.nBus).filter v.low).length + 1)) (by omega)
  rw [findSupernodes_mono h] at h1
  cases h1
  exact h2

theorem highEnd_isSome {v : RdView} {e : Series × Nat} : (highEnd v e).isSome = true ↔ ∃ x ∈ v.ends e.1 e.2, v.low x = false := by
  unfold highEnd
  simp

theorem highEnd_some {v : RdView} {e : Series × Nat} {o : Nat} (h : highEnd v e = some o) : o ∈ v.ends e.1 e.2 ∧ v.low o = false := by
  unfold highEnd at h
  have h1 := List.mem_of_find?_eq_some h
  have h2 := List.find?_some h
  exact ⟨h1, by simpa using h2⟩

/-- **C122**.  Reducing a network to a voltage level groups the buses below the level into supernodes: whenever the search ends, every such bus is in exactly one
supernode, no other bus is, and two buses are together exactly when a path below the level joins them; the elements of a supernode are exactly those with an end in it,
each once and in one supernode only; the elements replaced by artificial lines are those whose other end is at or above the level, and these other ends are
the coupling buses, in the same order.  The search ends without an error if the recursion limit exceeds the number of buses below the level. -/
theorem C122_supernodes_partial (v : RdView) (hv : RdOk v) (limit : Nat) :
    (∀ supers, findSupernodes v limit = .ok supers →
      (∀ x, (∃ S ∈ supers, x ∈ S.bus) ↔ x < v.nBus ∧ v.low x = true) ∧
      (supers.flatMap (·.bus)).Nodup ∧ (∀ S ∈ supers, S.bus ≠ []) ∧
      (∀ S ∈ supers, ∀ x ∈ S.bus, ∀ y, y ∈ S.bus ↔ LowConn v x y) ∧
      (supers.flatMap (·.els)).Nodup ∧
      (∀ S ∈ supers, ∀ e : Series × Nat, e ∈ S.els ↔ ∃ x ∈ v.ends e.1 e.2, x ∈ S.bus) ∧
      (∀ S ∈ supers, ∀ e : Series × Nat, e ∈ S.art ↔ e ∈ S.els ∧ ∃ x ∈ v.ends e.1 e.2, v.low x = false) ∧
      (∀ S ∈ supers, List.Forall₂ (fun (c : Nat) (e : Series × Nat) => c ∈ v.ends e.1 e.2 ∧ v.low c = false) S.coupling S.art)) ∧
    (((List.range v.nBus).filter v.low).length < limit → ∃ supers, findSupernodes v limit = .ok supers) := by
  constructor
  · intro supers h
    have h := findSupernodes_of_ok hv h
    refine ⟨h.mem, h.nodup, h.nonempty, h.comp, h.elNodup, h.elMem, ?_, ?_⟩
    · intro S hS e
      rw [h.art S hS, List.mem_filter, highEnd_isSome]
    · intro S hS
      have hc := h.coupling S hS
      generalize S.coupling = cs at hc
      generalize S.art = as at hc
      induction as generalizing cs with
      | nil =>
        rw [List.map_nil, List.map_eq_nil_iff] at hc
        subst hc
        exact List.Forall₂.nil
      | cons e as ih =>
        cases cs with
        | nil => simp at hc
        | cons c cs =>
          simp only [List.map_cons, List.cons.injEq] at hc
          exact List.Forall₂.cons (highEnd_some hc.1.symm) (ih cs hc.2)
  · intro h
    obtain ⟨r, h1, _⟩ := findSupernodes_total hv limit h
    exact ⟨r, h1⟩

/-- a chain of `n` buses below the voltage level: line `e` joins the buses `e` and `e + 1` -/
def chainView (n : Nat) : RdView where
  nBus := n
  low := fun _ => true
  inc := fun s b => match s with
    | .line => (if 0 < b ∧ b < n then [b - 1] else []) ++ (if b + 1 < n then [b] else [])
    | .trafo => []
  ends := fun s e => match s with
    | .line => if e + 1 < n then [e, e + 1] else []
    | .trafo => []

theorem chainView_ok (n : Nat) : RdOk (chainView n) := by
  constructor
  · intro s b el h
    cases s with
    | trafo => simp [chainView] at h
    | line =>
      simp only [chainView, List.mem_append] at h
      have : el + 1 < n ∧ (b = el ∨ b = el + 1) := by
        rcases h with h | h
        · split at h
          · rw [List.mem_singleton] at h
            omega
          · simp at h
        · split at h
          · rw [List.mem_singleton] at h
            omega
          · simp at h
      refine ⟨el, el + 1, by omega, ?_, ?_, ?_, this.2⟩
      · show el < n
        omega
      · exact this.1
      · simp [chainView, this.1]
  · intro s b el h
    cases s with
    | trafo => simp [chainView] at h
    | line =>
      simp only [chainView] at h ⊢
      split at h
      · simp only [List.mem_cons, List.not_mem_nil, or_false] at h
        rcases h with rfl | rfl
        · simp_all
        · simp_all
      · simp at h

theorem chain_track (n : Nat) : ∀ (d b : Nat) (st : RdState), b + d < n → (∀ x, st.busFlag x = true ↔ x < b) →
    (∀ e, b ≤ e → st.elFlag .line e = false) → voltageTrack (chainView n) d b st = .error .recursion := by
  intro d
  induction d with
  | zero => intros; rfl
  | succ d ih =>
    intro b st hd hb he
    have hfb : st.busFlag b = false := by
      cases h : st.busFlag b with
      | false => rfl
      | true => have := (hb b).1 h; omega
    unfold voltageTrack
    rw [if_neg (by simp [chainView]), if_neg (by simp [hfb])]
    obtain ⟨s0, hs0⟩ : ∃ s0 : RdState, s0 = { st with busFlag := setFlag st.busFlag b, isSuper := true, bus := st.bus ++ [b] } := ⟨_, rfl⟩
    rw [← hs0]
    have hb0 : ∀ x, s0.busFlag x = true ↔ x < b + 1 := by
      intro x
      rw [hs0]
      simp only [setFlag]
      split
      · rename_i h
        simp [h]
      · rename_i h
        rw [hb x]
        omega
    have he0 : ∀ e, b ≤ e → s0.elFlag .line e = false := by
      intro e h
      rw [hs0]
      exact he e h
    -- the step to the next bus
    have hnext : ∀ s1 : RdState, (∀ x, s1.busFlag x = true ↔ x < b + 1) → (∀ e, b ≤ e → s1.elFlag .line e = false) →
        elStep (chainView n) (voltageTrack (chainView n) d) .line b s1 b = .error .recursion := by
      intro s1 h1 h2
      have hends : (chainView n).ends .line b = [b, b + 1] := by
        simp only [chainView]
        rw [if_pos (by omega)]
      unfold elStep
      rw [if_neg (by rw [h2 b le_rfl]; simp), if_neg (by rw [hends]; simp), ends_fold hends (by omega) (Or.inl ⟨rfl, rfl⟩)]
      unfold endStep
      rw [if_pos ⟨by omega, by
        cases h : s1.busFlag (b + 1) with
        | false => rfl
        | true => have := (h1 (b + 1)).1 h; omega⟩]
      rw [ih (b + 1) s1 (by omega) h1 (fun e h => h2 e (by omega))]
      rfl
    rw [List.foldlM_cons]
    have hline : seriesStep (chainView n) (voltageTrack (chainView n) d) b s0 .line = .error .recursion := by
      unfold seriesStep
      by_cases hb0' : b = 0
      · have : (chainView n).inc .line b = [b] := by
          simp only [chainView]
          rw [if_neg (by omega), if_pos (by omega)]
          rfl
        rw [this, List.foldlM_cons, hnext s0 hb0 he0]
        rfl
      · have : (chainView n).inc .line b = [b - 1, b] := by
          simp only [chainView]
          rw [if_pos (by omega), if_pos (by omega)]
          rfl
        rw [this, List.foldlM_cons]
        have h1 : ∃ s1, elStep (chainView n) (voltageTrack (chainView n) d) .line b s0 (b - 1) = .ok s1 ∧ (∀ x, s1.busFlag x = true ↔ x < b + 1) ∧
            (∀ e, b ≤ e → s1.elFlag .line e = false) := by
          unfold elStep
          by_cases hf : s0.elFlag .line (b - 1) = true
          · rw [if_pos hf]
            exact ⟨s0, rfl, hb0, he0⟩
          · rw [if_neg hf]
            have hends : (chainView n).ends .line (b - 1) = [b - 1, b] := by
              simp only [chainView]
              rw [if_pos (by omega)]
              congr 2
              omega
            rw [if_neg (by rw [hends]; simp), ends_fold hends (by omega) (Or.inr ⟨rfl, rfl⟩)]
            unfold endStep
            rw [if_neg (by rw [(hb0 (b - 1)).2 (by omega)]; simp), if_neg (by simp [chainView])]
            simp only [bind, Except.bind, hf, Bool.false_eq_true, if_false]
            refine ⟨_, rfl, hb0, ?_⟩
            intro e h
            simp only [setElFlag]
            rw [if_neg (by omega)]
            exact he0 e h
        obtain ⟨s1, a1, a2, a3⟩ := h1
        rw [a1]
        simp only [bind, Except.bind]
        rw [List.foldlM_cons, hnext s1 a2 a3]
        rfl
    rw [hline]
    rfl

/-- **C122** (violated without the condition): whatever the recursion limit, there is a consistent network - a chain of buses below the voltage level - whose
reduction stops with a RecursionError. -/
theorem C122_recursion_violated (limit : Nat) : ∃ v, RdOk v ∧ v.nBus = limit + 1 ∧ findSupernodes v limit = .error .recursion := by
  refine ⟨chainView (limit + 1), chainView_ok _, rfl, ?_⟩
  unfold findSupernodes
  rw [show (chainView (limit + 1)).nBus = limit + 1 from rfl, List.range_succ_eq_map, List.foldlM_cons]
  unfold reduceStep
  simp only [Bool.false_eq_true, if_false]
  rw [chain_track (limit + 1) limit 0 _ (by omega) (by simp) (by simp)]
  rfl

end Pyensys
