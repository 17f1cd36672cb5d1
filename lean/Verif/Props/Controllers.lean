import Verif.Model.Controllers
import Verif.Props.AttestOptions
import Verif.Props.Energy
import Mathlib.Tactic.Linarith
import Mathlib.Tactic.Ring

/-!
# Profiles, costs and time steps of the power flows of the planning tool (C220-C222)
-/

namespace Pyensys

/-! ## C220: profiles -/

/-- the profiles have different types or variables -/
def PpDistinct (l : List PpProfile) : Prop := l.Pairwise (fun a b => ¬ (a.type = b.type ∧ a.var = b.var))

/-- the factors that a history leaves for a type and variable: that of the last modifier since the network was initialised, if any -/
def ppFactor (h : List PpStep) (t v : Tok) : Option Rat :=
  h.foldl (fun acc s => ((s.mods.filter (fun m => decide (m.type = t ∧ m.var = v))).getLast?.map PpMod.centroid).or (if s.reset = true then none else acc)) none

/-- the profile with the factor -/
def ppScaled (f : Option Rat) (p : PpProfile) : PpProfile :=
  match f with
  | none => p
  | some q => ⟨p.type, p.var, ppScale q p.data⟩

theorem ppFind_distinct {l : List PpProfile} (hd : PpDistinct l) {i : Nat} {p : PpProfile} (hi : l[i]? = some p) : ppFind l p.type p.var = some i := by
  unfold ppFind
  rw [List.findIdx?_eq_some_iff_getElem]
  obtain ⟨hlt, he⟩ := List.getElem?_eq_some_iff.1 hi
  refine ⟨hlt, by rw [he]; simp, ?_⟩
  intro j hj
  have := List.pairwise_iff_getElem.1 hd j i (by omega) hlt hj
  rw [he] at this
  simpa using this

/-- controllers with the types and variables of the original profiles -/
def PpSame (orig ctl : List PpProfile) : Prop := ctl.map (fun p => (p.type, p.var)) = orig.map (fun p => (p.type, p.var))

theorem ppFind_same {orig ctl : List PpProfile} (h : PpSame orig ctl) (t v : Tok) : ppFind ctl t v = ppFind orig t v := by
  unfold PpSame at h
  unfold ppFind
  have e : ∀ l : List PpProfile, l.findIdx? (fun p => decide (p.type = t ∧ p.var = v)) = (l.map (fun p => (p.type, p.var))).findIdx? (fun q => decide (q.1 = t ∧ q.2 = v)) := by
    intro l
    rw [List.findIdx?_map]
    rfl
  rw [e, e, h]

theorem ppNew_ok {orig : List PpProfile} (hd : PpDistinct orig) {i : Nat} {p : PpProfile} (hi : orig[i]? = some p) (q : Rat) :
    ppNew orig ⟨p.type, p.var, q⟩ = .ok ⟨p.type, p.var, ppScale q p.data⟩ := by
  unfold ppNew ppPos
  dsimp only
  rw [ppFind_distinct hd hi]
  show (npGet orig i >>= _) = _
  have : npGet orig i = .ok p := by unfold npGet; rw [hi]
  rw [this]
  rfl

theorem ppUpdate_ok {orig ctl : List PpProfile} (hs : PpSame orig ctl) (hd : PpDistinct orig) {i : Nat} {p : PpProfile} (hi : orig[i]? = some p) (d : List (List Rat)) :
    ppUpdate ctl ⟨p.type, p.var, d⟩ = .ok (ctl.modify i (fun c => ⟨c.type, c.var, d⟩)) := by
  unfold ppUpdate ppPos
  dsimp only
  rw [ppFind_same hs, ppFind_distinct hd hi]
  rfl

theorem same_modify {orig ctl : List PpProfile} (hs : PpSame orig ctl) (i : Nat) (d : List (List Rat)) : PpSame orig (ctl.modify i (fun c => ⟨c.type, c.var, d⟩)) := by
  unfold PpSame at hs ⊢
  rw [← hs]
  apply List.ext_getElem?
  intro j
  simp only [List.getElem?_map, List.getElem?_modify]
  cases ctl[j]? with
  | none => rfl
  | some c =>
    by_cases h : i = j
    · simp [h]
    · simp [h]

/-- the state that a factor describes -/
def PpState (orig ctl : List PpProfile) (f : Tok → Tok → Option Rat) : Prop := ctl = orig.map (fun p => ppScaled (f p.type p.var) p)

theorem state_same {orig ctl : List PpProfile} {f : Tok → Tok → Option Rat} (h : PpState orig ctl f) : PpSame orig ctl := by
  unfold PpState at h
  unfold PpSame
  rw [h, List.map_map]
  apply List.map_congr_left
  intro p _
  show ((ppScaled (f p.type p.var) p).type, (ppScaled (f p.type p.var) p).var) = _
  unfold ppScaled
  cases f p.type p.var <;> rfl

theorem visit_fold {orig : List PpProfile} (hd : PpDistinct orig) (mods : List PpMod) (hm : ∀ m ∈ mods, ∃ p ∈ orig, p.type = m.type ∧ p.var = m.var) :
    ∀ (ctl : List PpProfile) (f : Tok → Tok → Option Rat), PpState orig ctl f → ∃ r, ppVisit orig ctl mods = .ok r ∧
      PpState orig r (fun t v => ((mods.filter (fun m => decide (m.type = t ∧ m.var = v))).getLast?.map PpMod.centroid).or (f t v)) := by
  have hnew : ∃ new, mods.mapM (ppNew orig) = .ok new ∧ List.Forall₂ (fun (m : PpMod) (n : PpProfile) => ∃ (i : Nat) (p : PpProfile), orig[i]? = some p ∧ p.type = m.type ∧ p.var = m.var ∧ n = ⟨p.type, p.var, ppScale m.centroid p.data⟩) mods new := by
    clear * - hd hm
    induction mods with
    | nil => exact ⟨[], rfl, .nil⟩
    | cons m mods ih =>
      obtain ⟨new, h1, h2⟩ := ih (fun m' h => hm m' (by simp [h]))
      obtain ⟨p, hp, ht, hv⟩ := hm m (by simp)
      obtain ⟨i, hi⟩ := List.getElem?_of_mem hp
      have hn := ppNew_ok hd hi m.centroid
      rw [ht, hv] at hn
      refine ⟨⟨p.type, p.var, ppScale m.centroid p.data⟩ :: new, ?_, .cons ⟨i, p, hi, ht, hv, rfl⟩ h2⟩
      rw [List.mapM_cons]
      have hn' : ppNew orig m = .ok ⟨p.type, p.var, ppScale m.centroid p.data⟩ := by rw [ht, hv]; exact hn
      rw [hn', h1]
      rfl
  obtain ⟨new, hn1, hn2⟩ := hnew
  intro ctl f hst
  have key : ∀ (mods : List PpMod) (new : List PpProfile), List.Forall₂ (fun (m : PpMod) (n : PpProfile) => ∃ (i : Nat) (p : PpProfile), orig[i]? = some p ∧ p.type = m.type ∧ p.var = m.var ∧ n = ⟨p.type, p.var, ppScale m.centroid p.data⟩) mods new →
      ∀ (ctl : List PpProfile) (f : Tok → Tok → Option Rat), PpState orig ctl f → ∃ r, new.foldlM ppUpdate ctl = .ok r ∧
        PpState orig r (fun t v => ((mods.filter (fun m => decide (m.type = t ∧ m.var = v))).getLast?.map PpMod.centroid).or (f t v)) := by
    intro mods new hf
    induction hf with
    | nil =>
      intro ctl f h
      exact ⟨ctl, rfl, by simpa using h⟩
    | @cons m n mods new h1 _ ih =>
      intro ctl f h
      obtain ⟨i, p, hi, ht, hv, rfl⟩ := h1
      have hstep := ppUpdate_ok (state_same h) hd hi (ppScale m.centroid p.data)
      have hst' : PpState orig (ctl.modify i (fun c => ⟨c.type, c.var, ppScale m.centroid p.data⟩)) (fun t v => if m.type = t ∧ m.var = v then some m.centroid else f t v) := by
        unfold PpState at h ⊢
        rw [h]
        apply List.ext_getElem?
        intro j
        simp only [List.getElem?_map, List.getElem?_modify]
        cases hj : orig[j]? with
        | none => rfl
        | some o =>
          by_cases hij : i = j
          · subst hij
            rw [hi] at hj
            injection hj with hj
            subst hj
            simp only [Option.map_some, if_true, ht, hv]
            rw [if_pos ⟨trivial, trivial⟩]
            unfold ppScaled
            cases f m.type m.var <;> simp [ht, hv]
          · have hne : ¬ (m.type = o.type ∧ m.var = o.var) := by
              rintro ⟨e1, e2⟩
              have f1 := ppFind_distinct hd hi
              have f2 := ppFind_distinct hd hj
              rw [ht, hv, e1, e2, f2] at f1
              injection f1 with f1
              exact hij f1.symm
            simp [hij, hne]
      obtain ⟨r, hr1, hr2⟩ := ih _ _ hst'
      refine ⟨r, ?_, ?_⟩
      · rw [List.foldlM_cons, hstep]
        exact hr1
      · unfold PpState at hr2 ⊢
        rw [hr2]
        apply List.map_congr_left
        intro o _
        congr 1
        beta_reduce
        by_cases he : m.type = o.type ∧ m.var = o.var
        · rw [List.filter_cons_of_pos (by simpa using he), if_pos he]
          cases hl : (mods.filter (fun m => decide (m.type = o.type ∧ m.var = o.var))).getLast? with
          | none =>
            rw [List.getLast?_eq_none_iff] at hl
            rw [hl]
            rfl
          | some z =>
            rw [List.getLast?_cons, hl]
            rfl
        · rw [List.filter_cons_of_neg (by simpa using he), if_neg he]
  obtain ⟨r, hr1, hr2⟩ := key mods new hn2 ctl f hst
  refine ⟨r, ?_, hr2⟩
  unfold ppVisit
  rw [hn1]
  exact hr1

/-- C220: after any history of visits, every controller has its original profile times the factor of the last modifier for its type and variable since the network was initialised; if the profiles have different types or variables, and modifiers are for existing profiles -/
theorem C220_history_partial (orig : List PpProfile) (hd : PpDistinct orig) (h : List PpStep) (hm : ∀ s ∈ h, ∀ m ∈ s.mods, ∃ p ∈ orig, p.type = m.type ∧ p.var = m.var) :
    ppRun orig h = .ok (orig.map (fun p => ppScaled (ppFactor h p.type p.var) p)) := by
  have key : ∀ (h : List PpStep), (∀ s ∈ h, ∀ m ∈ s.mods, ∃ p ∈ orig, p.type = m.type ∧ p.var = m.var) → ∀ (ctl : List PpProfile) (f : Tok → Tok → Option Rat), PpState orig ctl f →
      ∃ r, h.foldlM (pfStep orig) ctl = .ok r ∧ PpState orig r (fun t v => h.foldl (fun acc s => ((s.mods.filter (fun m => decide (m.type = t ∧ m.var = v))).getLast?.map PpMod.centroid).or (if s.reset = true then none else acc)) (f t v)) := by
    intro h
    induction h with
    | nil =>
      intro _ ctl f hst
      exact ⟨ctl, rfl, hst⟩
    | cons s h ih =>
      intro hm ctl f hst
      have h0 : PpState orig (if s.reset = true then orig else ctl) (fun t v => if s.reset = true then none else f t v) := by
        cases s.reset
        · exact hst
        · unfold PpState
          simp [ppScaled]
      obtain ⟨r, hr1, hr2⟩ := visit_fold hd s.mods (hm s (by simp)) _ _ h0
      obtain ⟨r', hr3, hr4⟩ := ih (fun s' h' => hm s' (by simp [h'])) r _ hr2
      refine ⟨r', ?_, hr4⟩
      rw [List.foldlM_cons]
      have : pfStep orig ctl s = .ok r := hr1
      rw [this]
      exact hr3
  obtain ⟨r, h1, h2⟩ := key h hm orig (fun _ _ => none) (by unfold PpState; simp [ppScaled])
  unfold ppRun
  rw [h1, h2]
  rfl

/-- C220: in the non-anticipative search (the network is initialised before every visit) the profiles of a node depend on this node only -/
theorem C220_node_partial (orig : List PpProfile) (hd : PpDistinct orig) (h : List PpStep) (mods : List PpMod) (hm : ∀ s ∈ h, ∀ m ∈ s.mods, ∃ p ∈ orig, p.type = m.type ∧ p.var = m.var)
    (hm' : ∀ m ∈ mods, ∃ p ∈ orig, p.type = m.type ∧ p.var = m.var) : ppRun orig (h ++ [⟨true, mods⟩]) = ppRun orig [⟨true, mods⟩] := by
  rw [C220_history_partial orig hd, C220_history_partial orig hd]
  · congr 1
    apply List.map_congr_left
    intro p _
    congr 1
    unfold ppFactor
    rw [List.foldl_append]
    rfl
  · intro s hs m hm
    rw [List.mem_singleton] at hs
    subst hs
    exact hm' m hm
  · intro s hs m hms
    rcases List.mem_append.1 hs with hs | hs
    · exact hm s hs m hms
    · rw [List.mem_singleton] at hs
      subst hs
      exact hm' m hms

/-- C220, violated: of two profiles for the same type and variable (of other elements) only the first follows the node, the second never changes -/
theorem C220_violated_second (a b : PpProfile) (hab : a.type = b.type ∧ a.var = b.var) (q : Rat) :
    ppRun [a, b] [⟨true, [⟨b.type, b.var, q⟩]⟩] = .ok [⟨a.type, a.var, ppScale q a.data⟩, b] := by
  obtain ⟨ta, va, da⟩ := a
  obtain ⟨tb, vb, db⟩ := b
  obtain ⟨h1, h2⟩ := hab
  dsimp only at h1 h2
  subst h1 h2
  have hf : ∀ d d' : List (List Rat), ppFind [⟨ta, va, d⟩, ⟨ta, va, d'⟩] ta va = some 0 := by
    intro d d'
    unfold ppFind
    rw [List.findIdx?_cons, if_pos (by simp)]
  have hn : ppNew [⟨ta, va, da⟩, ⟨ta, va, db⟩] ⟨ta, va, q⟩ = .ok ⟨ta, va, ppScale q da⟩ := by
    unfold ppNew ppPos
    dsimp only
    rw [hf]
    rfl
  have hu : ppUpdate [⟨ta, va, da⟩, ⟨ta, va, db⟩] ⟨ta, va, ppScale q da⟩ = .ok [⟨ta, va, ppScale q da⟩, ⟨ta, va, db⟩] := by
    unfold ppUpdate ppPos
    dsimp only
    rw [hf]
    rfl
  show (pfStep _ _ _ >>= fun r => pure r) = _
  unfold pfStep ppVisit
  rw [if_pos rfl, List.mapM_cons, hn]
  show ((ppUpdate _ _ >>= fun r => pure r) >>= fun r => pure r) = _
  rw [hu]
  rfl

/-- C220, violated: a modifier for a type and variable without profile scales the last profile -/
theorem C220_violated_unknown (orig : List PpProfile) (hd : PpDistinct orig) (p : PpProfile) (hl : orig.getLast? = some p) (m : PpMod) (hm : ∀ o ∈ orig, ¬ (o.type = m.type ∧ o.var = m.var)) :
    ppNew orig m = .ok ⟨p.type, p.var, ppScale m.centroid p.data⟩ ∧ ppUpdate orig ⟨p.type, p.var, ppScale m.centroid p.data⟩ = .ok (orig.modify (orig.length - 1) (fun c => ⟨c.type, c.var, ppScale m.centroid p.data⟩)) := by
  have hi : orig[orig.length - 1]? = some p := by rw [← List.getLast?_eq_getElem?]; exact hl
  constructor
  · unfold ppNew ppPos
    have : ppFind orig m.type m.var = none := by
      unfold ppFind
      rw [List.findIdx?_eq_none_iff]
      intro o ho
      simpa using hm o ho
    rw [this]
    have hne : orig.length ≠ 0 := by
      intro h0
      rw [List.length_eq_zero_iff] at h0
      subst h0
      cases hl
    show ((if orig.length = 0 then _ else _) >>= _) = _
    rw [if_neg hne]
    show (npGet orig (orig.length - 1) >>= _) = _
    have : npGet orig (orig.length - 1) = .ok p := by unfold npGet; rw [hi]
    rw [this]
    rfl
  · exact ppUpdate_ok rfl hd hi _

/-! ## C221: costs -/

theorem ppFree_zero (l : List (Nat × Int)) : ppFree l = 0 ↔ l = [] := by
  unfold ppFree
  constructor
  · intro h
    by_contra hne
    obtain ⟨e, hl⟩ := List.exists_mem_of_ne_nil l hne
    have mono : ∀ (l : List (Nat × Int)) (m : Nat), m ≤ l.foldl (fun m e => max m (e.1 + 1)) m := by
      intro l
      induction l with
      | nil => intro m; exact le_refl m
      | cons x l ih => intro m; exact le_trans (le_max_left m (x.1 + 1)) (ih _)
    have pos : ∀ (l : List (Nat × Int)) (m : Nat), e ∈ l → e.1 + 1 ≤ l.foldl (fun m e => max m (e.1 + 1)) m := by
      intro l
      induction l with
      | nil => intro m h; cases h
      | cons x l ih =>
        intro m hm
        rcases List.mem_cons.1 hm with rfl | hm
        · exact le_trans (le_max_right m _) (mono l _)
        · exact ih _ hm
    have := pos l 0 hl
    omega
  · rintro rfl
    rfl

/-- the dispatch after the exchange: the new generator takes the place of the external grid -/
def ppMoved (new : Nat) (p : PpTable → Nat → Rat) : PpTable → Nat → Rat
  | .extGrid, _ => 0
  | .gen, i => if i = new then p .extGrid 0 else p .gen i
  | .sgen, i => p .sgen i
  | .load, i => p .load i

/-- C221: if the network has no generators and all costs are those of the external grid, the power flow minimises the costs of the file -/
theorem C221_costs_partial (n n' : PfNet) (h : ppPrepare n = .ok n') (hg : n.gens = []) (hc : ∀ c ∈ n.costs, c.table = .extGrid ∧ c.element = 0) (p : PpTable → Nat → Rat) :
    pfCost n'.costs (ppMoved (ppFree n.gens) p) = pfCost n.costs p := by
  unfold ppPrepare at h
  cases he : n.ext.find? (fun e => e.1 == 0) with
  | none => rw [he] at h; cases h
  | some e =>
    rw [he] at h
    injection h with h
    subst h
    unfold pfCost
    rw [List.map_map, (ppFree_zero n.gens).2 hg]
    congr 1
    apply List.map_congr_left
    intro c hcm
    obtain ⟨h1, h2⟩ := hc c hcm
    show c.cp1 * ppMoved 0 p .gen c.element = c.cp1 * p c.table c.element
    rw [h1, h2]
    rfl

/-- C221: the generator that replaces the external grid stands at its bus, the other generators stay, and no two generators have the same label -/
theorem C221_generator_partial (n n' : PfNet) (h : ppPrepare n = .ok n') (hd : (n.gens.map Prod.fst).Nodup) :
    (n'.gens.map Prod.fst).Nodup ∧ ∃ label bus, n'.gens = n.gens ++ [(label, bus)] ∧ (0, bus) ∈ n.ext := by
  unfold ppPrepare at h
  cases he : n.ext.find? (fun e => e.1 == 0) with
  | none => rw [he] at h; cases h
  | some e =>
    rw [he] at h
    injection h with h
    subst h
    have hm := List.mem_of_find?_eq_some he
    have hz := List.find?_some he
    simp only [beq_iff_eq] at hz
    refine ⟨?_, ppFree n.gens, e.2, rfl, ?_⟩
    · have mono : ∀ (l : List (Nat × Int)) (m : Nat), m ≤ l.foldl (fun m e => max m (e.1 + 1)) m := by
        intro l
        induction l with
        | nil => intro m; exact le_refl m
        | cons x l ih => intro m; exact le_trans (le_max_left m (x.1 + 1)) (ih _)
      have pos : ∀ (l : List (Nat × Int)) (m : Nat), ∀ e ∈ l, e.1 + 1 ≤ l.foldl (fun m e => max m (e.1 + 1)) m := by
        intro l
        induction l with
        | nil => intro m e he; cases he
        | cons x l ih =>
          intro m e he
          rcases List.mem_cons.1 he with rfl | he
          · exact le_trans (le_max_right m _) (mono l _)
          · exact ih _ e he
      dsimp only
      rw [List.map_append, List.nodup_append]
      refine ⟨hd, by simp, ?_⟩
      intro a ha b hb hab
      obtain ⟨g, hg, rfl⟩ := List.mem_map.1 ha
      simp only [List.map_cons, List.map_nil, List.mem_singleton] at hb
      have := pos n.gens 0 g hg
      unfold ppFree at hb
      omega
    · rw [← hz]; exact hm

/-- C221, violated: if the network has a generator 0, the cost of the external grid is charged to it, and the power from the grid is free -/
theorem C221_violated_generator (n n' : PfNet) (h : ppPrepare n = .ok n') (hg : n.gens ≠ []) (q : Rat) (hc : n.costs = [⟨.extGrid, 0, q⟩]) (p : PpTable → Nat → Rat) :
    pfCost n.costs p = q * p .extGrid 0 ∧ pfCost n'.costs (ppMoved (ppFree n.gens) p) = q * p .gen 0 := by
  unfold ppPrepare at h
  cases he : n.ext.find? (fun e => e.1 == 0) with
  | none => rw [he] at h; cases h
  | some e =>
    rw [he] at h
    injection h with h
    subst h
    constructor
    · rw [hc]
      show q * p .extGrid 0 + 0 = _
      rw [add_zero]
    · rw [hc]
      show q * ppMoved (ppFree n.gens) p .gen 0 + 0 = _
      have : ¬ (0 = ppFree n.gens) := fun e => hg ((ppFree_zero _).1 e.symm)
      show q * (if 0 = ppFree n.gens then _ else _) + 0 = _
      rw [if_neg this, add_zero]

/-- C221, violated: the cost of a static generator (flexibility) is charged to a generator -/
theorem C221_violated_static (n n' : PfNet) (h : ppPrepare n = .ok n') (i : Nat) (q : Rat) (hc : n.costs = [⟨.sgen, i, q⟩]) : n'.costs = [⟨.gen, i, q⟩] := by
  unfold ppPrepare at h
  cases he : n.ext.find? (fun e => e.1 == 0) with
  | none => rw [he] at h; cases h
  | some e =>
    rw [he] at h
    injection h with h
    subst h
    rw [hc]
    rfl

/-- C221, violated: of several external grids only number 0 is kept -/
theorem C221_violated_grids (n n' : PfNet) (h : ppPrepare n = .ok n') : n'.ext = [] ∧ n'.gens.length = n.gens.length + 1 := by
  unfold ppPrepare at h
  cases he : n.ext.find? (fun e => e.1 == 0) with
  | none => rw [he] at h; cases h
  | some e =>
    rw [he] at h
    injection h with h
    subst h
    exact ⟨rfl, by simp⟩

/-- C221, violated: a second power flow on the same network never runs -/
theorem C221_violated_again (n n' : PfNet) (h : ppPrepare n = .ok n') : ppPrepare n' = .error .key := by
  obtain ⟨h1, _⟩ := C221_violated_grids n n' h
  unfold ppPrepare
  rw [h1]
  rfl

/-! ## C222: time steps -/

theorem ppTimes_last (go : Bool) (opf : Nat → Option Rat) (r0 : PpResult) (n : Nat) (r : PpResult) (h : ppTimes go opf r0 (n + 1) = .ok r) :
    ∃ r', ppTimes go opf r0 n = .ok r' ∧ ppTime go opf r' n = .ok r := by
  unfold ppTimes at h ⊢
  rw [List.range_succ, List.foldlM_append] at h
  obtain ⟨r', h1, h2⟩ := except_bind_ok.1 h
  refine ⟨r', h1, ?_⟩
  obtain ⟨r'', h3, h4⟩ := except_bind_ok.1 h2
  injection h4 with h4
  subst h4
  exact h3

/-- C222: without continuing on divergence, a run that ends has converged in all steps -/
theorem C222_verdict_partial (opf : Nat → Option Rat) (r0 : PpResult) (n : Nat) : (∃ r, ppTimes false opf r0 n = .ok r) ↔ ∀ t < n, ∃ c, opf t = some c := by
  induction n with
  | zero => exact ⟨fun _ t ht => absurd ht (by omega), fun _ => ⟨r0, rfl⟩⟩
  | succ n ih =>
    constructor
    · rintro ⟨r, h⟩
      obtain ⟨r', h1, h2⟩ := ppTimes_last _ _ _ _ _ h
      intro t ht
      rcases Nat.lt_or_ge t n with hlt | hge
      · exact ih.1 ⟨r', h1⟩ t hlt
      · have : t = n := by omega
        subst this
        cases ho : opf t with
        | some c => exact ⟨c, rfl⟩
        | none =>
          unfold ppTime at h2
          rw [ho] at h2
          cases h2
    · intro h
      obtain ⟨r', h1⟩ := ih.2 (fun t ht => h t (by omega))
      obtain ⟨c, hc⟩ := h n (by omega)
      refine ⟨⟨true, c⟩, ?_⟩
      unfold ppTimes at h1 ⊢
      rw [List.range_succ, List.foldlM_append, h1]
      show (ppTime false opf r' n >>= fun r => pure r) = _
      unfold ppTime
      rw [hc]
      rfl

/-- C222, violated: the cost of a node is that of its last time step, whatever the other steps cost -/
theorem C222_violated_cost (go : Bool) (opf : Nat → Option Rat) (r0 : PpResult) (n : Nat) (c : Rat) (hc : opf n = some c) (r : PpResult) (h : ppTimes go opf r0 (n + 1) = .ok r) : r = ⟨true, c⟩ := by
  obtain ⟨r', _, h2⟩ := ppTimes_last _ _ _ _ _ h
  unfold ppTime at h2
  rw [hc] at h2
  injection h2 with h2
  exact h2.symm

/-- C222, violated: when a run continues on divergence, the verdict is that of the last step: failures before do not count -/
theorem C222_violated_verdict (opf : Nat → Option Rat) (r0 : PpResult) (n : Nat) : ∃ r, ppTimes true opf r0 (n + 1) = .ok r ∧ (r.converged = true ↔ ∃ c, opf n = some c) := by
  have hex : ∀ n, ∃ r, ppTimes true opf r0 n = .ok r := by
    intro n
    induction n with
    | zero => exact ⟨r0, rfl⟩
    | succ n ih =>
      obtain ⟨r', h1⟩ := ih
      have : ∃ r, ppTime true opf r' n = .ok r := by
        unfold ppTime
        cases opf n with
        | some c => exact ⟨_, rfl⟩
        | none => exact ⟨_, rfl⟩
      obtain ⟨r, hr⟩ := this
      refine ⟨r, ?_⟩
      unfold ppTimes at h1 ⊢
      rw [List.range_succ, List.foldlM_append, h1]
      show (ppTime true opf r' n >>= fun r => pure r) = _
      rw [hr]
      rfl
  obtain ⟨r, hr⟩ := hex (n + 1)
  refine ⟨r, hr, ?_⟩
  obtain ⟨r', _, h2⟩ := ppTimes_last _ _ _ _ _ hr
  unfold ppTime at h2
  cases ho : opf n with
  | some c =>
    rw [ho] at h2
    injection h2 with h2
    subst h2
    simp
  | none =>
    rw [ho] at h2
    injection h2 with h2
    subst h2
    simp

/-! ## examples -/

/-- loads and generators over two hours -/
def ppExample : List PpProfile := [⟨"load".toList, "p_mw".toList, [[10, 20], [30, 40]]⟩, ⟨"sgen".toList, "p_mw".toList, [[1], [2]]⟩]

example : PpDistinct ppExample := by unfold PpDistinct ppExample; simp
example : ppRun ppExample [⟨true, [⟨"load".toList, "p_mw".toList, 2⟩, ⟨"sgen".toList, "p_mw".toList, 3⟩]⟩, ⟨false, [⟨"load".toList, "p_mw".toList, 1 / 2⟩]⟩] =
    .ok [⟨"load".toList, "p_mw".toList, [[5, 10], [15, 20]]⟩, ⟨"sgen".toList, "p_mw".toList, [[3], [6]]⟩] := by decide +kernel
example : ppFactor [⟨true, [⟨"load".toList, "p_mw".toList, 2⟩, ⟨"sgen".toList, "p_mw".toList, 3⟩]⟩, ⟨false, [⟨"load".toList, "p_mw".toList, 1 / 2⟩]⟩] "sgen".toList "p_mw".toList = some 3 := by decide +kernel
example : ppPrepare ⟨[(0, 7)], [(0, 2)], [⟨.extGrid, 0, 5⟩, ⟨.gen, 0, 4⟩]⟩ = .ok ⟨[], [(0, 2), (1, 7)], [⟨.gen, 0, 5⟩, ⟨.gen, 0, 4⟩]⟩ := by decide +kernel
example : ppTimes true (fun t => if t = 1 then none else some (t : Rat)) ⟨false, 0⟩ 3 = .ok ⟨true, 2⟩ := by decide +kernel
example : ppTimes false (fun t => if t = 1 then none else some (t : Rat)) ⟨false, 0⟩ 3 = .error .runtime := by decide +kernel

end Pyensys
