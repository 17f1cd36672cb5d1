import Verif.Model.Tables
import Mathlib.Data.List.Basic
import Mathlib.Data.List.Perm.Basic

/-! Lemmas about the tables of Model/Tables: rows as dictionaries, passes through the values, the loop. -/

namespace Pyensys

theorem otSet_lookup {α : Type} (r : List (Tok × α)) (k : Tok) (c : α) (k' : Tok) : (rpSet r k c).lookup k' = if k' = k then some c else r.lookup k' := by
  unfold rpSet
  by_cases h : r.any (fun e => decide (e.1 = k)) = true
  · rw [if_pos h]
    induction r with
    | nil => simp at h
    | cons e r ih =>
      obtain ⟨a, b⟩ := e
      by_cases ha : a = k
      · subst ha
        by_cases hk : k' = a
        · subst hk; simp
        · have hrest : (r.map (fun e => if e.1 = a then (e.1, c) else e)).lookup k' = r.lookup k' := by
            clear ih h
            induction r with
            | nil => rfl
            | cons e r ih =>
              obtain ⟨x, y⟩ := e
              by_cases hx : x = a
              · subst hx
                have : (k' == x) = false := by simpa using hk
                simp [List.lookup_cons, this, ih]
              · simp only [List.map_cons, if_neg hx, List.lookup_cons, ih]
          have : (k' == a) = false := by simpa using hk
          simp only [List.map_cons, if_true, List.lookup_cons, this, if_neg hk]
          exact hrest
      · have h' : r.any (fun e => decide (e.1 = k)) = true := by simpa [ha] using h
        have := ih h'
        simp only [List.map_cons, if_neg ha, List.lookup_cons, this]
        by_cases hk : k' = k
        · subst hk
          have : (k' == a) = false := by simpa using fun h : k' = a => ha h.symm
          simp [this]
        · simp [hk]
  · rw [if_neg h]
    induction r with
    | nil =>
      by_cases hk : k' = k
      · subst hk; simp
      · have : (k' == k) = false := by simpa using hk
        simp [List.lookup_cons, this, hk]
    | cons e r ih =>
      obtain ⟨a, b⟩ := e
      have h1 : a ≠ k := by intro ha; apply h; simp [ha]
      have h' : ¬ r.any (fun e => decide (e.1 = k)) = true := by intro hh; apply h; simp only [List.any_cons, hh, Bool.or_true]
      have := ih h'
      simp only [List.cons_append, List.lookup_cons, this]
      by_cases hk : k' = k
      · subst hk
        have : (k' == a) = false := by simpa using fun h : k' = a => h1 h.symm
        simp [this]
      · simp [hk]

/-- entries with new keys are appended -/
theorem otSet_fold {α : Type} (w : List (Tok × α)) : ∀ r : List (Tok × α), (r.map Prod.fst ++ w.map Prod.fst).Nodup → w.foldl (fun m e => rpSet m e.1 e.2) r = r ++ w := by
  induction w with
  | nil => intro r _; simp
  | cons e w ih =>
    intro r h
    obtain ⟨k, c⟩ := e
    have hk : ¬ r.any (fun e => decide (e.1 = k)) = true := by
      intro hh
      obtain ⟨x, hx, hxk⟩ := List.any_eq_true.1 hh
      have hxk : x.1 = k := by simpa using hxk
      have := List.nodup_append.1 h
      exact this.2.2 x.1 (List.mem_map.2 ⟨x, hx, rfl⟩) k (by simp) hxk
    have hs : rpSet r k c = r ++ [(k, c)] := by unfold rpSet; rw [if_neg hk]
    rw [List.foldl_cons, hs, ih]
    · simp
    · simpa using h

theorem lookup_mem_iff {α : Type} (w : List (Tok × α)) (h : (w.map Prod.fst).Nodup) (k : Tok) (c : α) : w.lookup k = some c ↔ (k, c) ∈ w := by
  induction w with
  | nil => simp
  | cons e w ih =>
    obtain ⟨a, b⟩ := e
    have hn := List.nodup_cons.1 (by simpa using h : (a :: w.map Prod.fst).Nodup)
    by_cases hk : k = a
    · subst hk
      simp only [List.lookup_cons, beq_self_eq_true, List.mem_cons, Prod.mk.injEq, true_and]
      constructor
      · intro h; left; simpa using h.symm
      · rintro (h | h)
        · simp [h]
        · exact absurd (List.mem_map.2 ⟨_, h, rfl⟩) hn.1
    · have : (k == a) = false := by simpa using hk
      simp only [List.lookup_cons, this, List.mem_cons, Prod.mk.injEq, hk, false_and, false_or]
      exact ih hn.2

theorem lookup_none_of {α : Type} (w : List (Tok × α)) (k : Tok) (h : k ∉ w.map Prod.fst) : w.lookup k = none := by
  induction w with
  | nil => rfl
  | cons e w ih =>
    obtain ⟨a, b⟩ := e
    have h1 : k ≠ a := by intro e; apply h; simp [e]
    have h2 : k ∉ w.map Prod.fst := by intro hh; apply h; simp only [List.map_cons, List.mem_cons]; exact Or.inr hh
    have : (k == a) = false := by simpa using h1
    simp only [List.lookup_cons, this]
    exact ih h2

theorem otSame_iff (a b : List (Tok × Tok)) : otSame a b = true ↔ ∀ k, a.lookup k = b.lookup k := by
  unfold otSame
  rw [List.all_eq_true]
  constructor
  · intro h k
    by_cases hk : k ∈ a.map Prod.fst ++ b.map Prod.fst
    · simpa using h k hk
    · rw [List.mem_append, not_or] at hk
      rw [lookup_none_of a k hk.1, lookup_none_of b k hk.2]
  · intro h k _
    simp [h k]

/-- the label of the row of a value: the texts of its characteristics of time and place -/
def otLabel (d : OtDevice) (p : OtProblem) (v : OtVal) : List (Tok × Tok) := (v.cha.filter (fun c => otIsTime p c.key)).map (fun c => (c.key, c.text d))

/-- a value that can be placed: its characteristics of time and place have different names, those in `T`, and it has one identifier, which is none of these names -/
structure OtFit (p : OtProblem) (T : List Tok) (v : OtVal) (id : Tok) : Prop where
  times : ((v.cha.filter (fun c => otIsTime p c.key)).map (fun c => c.key)).Perm T
  nodup : T.Nodup
  some : T ≠ []
  ident : (v.cha.filter (fun c => c.key == otIdKey p)).map (fun c => c.first) = [id]
  apart : id ∉ T

theorem OtFit.lastId {p T v id} (h : OtFit p T v id) : otLastId p v = id := by
  obtain ⟨c, hf, hx⟩ := List.map_eq_singleton_iff.1 h.ident
  unfold otLastId
  rw [hf]
  exact hx

theorem OtFit.keys {p T v id} (h : OtFit p T v id) (d : OtDevice) : ((otLabel d p v).map Prod.fst).Perm T := by
  have : (otLabel d p v).map Prod.fst = (v.cha.filter (fun c => otIsTime p c.key)).map (fun c => c.key) := by
    simp [otLabel, Function.comp_def]
  rw [this]; exact h.times

theorem OtFit.label_nodup {p T v id} (h : OtFit p T v id) (d : OtDevice) : ((otLabel d p v).map Prod.fst).Nodup := ((h.keys d).nodup_iff).2 h.nodup

theorem OtFit.label_ne {p T v id} (h : OtFit p T v id) (d : OtDevice) : otLabel d p v ≠ [] := by
  intro e
  have := h.keys d
  rw [e] at this
  exact h.some (List.nil_perm.1 this)

theorem OtFit.dict {p T v id} (h : OtFit p T v id) (d : OtDevice) : otDict d p v = otLabel d p v := by
  have e : otDict d p v = (otLabel d p v).foldl (fun m e => rpSet m e.1 e.2) [] := by
    unfold otDict otLabel
    rw [List.foldl_map]
  rw [e, otSet_fold _ _ (by simpa using h.label_nodup d)]
  rfl

theorem idKey_not_time (p : OtProblem) : otIsTime p (otIdKey p) = false := by cases p <;> decide

/-- the cells that the first value of a row writes -/
def otCells (d : OtDevice) (p : OtProblem) (v : OtVal) (l : List OtCha) : List (Tok × OtCell) :=
  l.filterMap (fun c => if otIsTime p c.key then some (c.key, .text (c.text d)) else if c.key == otIdKey p then some (c.first, .num v.val) else none)

theorem otCells_perm (d : OtDevice) (p : OtProblem) (v : OtVal) (l : List OtCha) : (otCells d p v l).Perm
    ((l.filter (fun c => otIsTime p c.key)).map (fun c => (c.key, OtCell.text (c.text d))) ++ (l.filter (fun c => c.key == otIdKey p)).map (fun c => (c.first, OtCell.num v.val))) := by
  induction l with
  | nil => exact List.Perm.refl _
  | cons c l ih =>
    unfold otCells at ih ⊢
    by_cases ht : otIsTime p c.key = true
    · have hid : (c.key == otIdKey p) = false := by
        rcases hb : (c.key == otIdKey p) with _ | _
        · rfl
        · have := beq_iff_eq.1 hb
          rw [this, idKey_not_time] at ht
          exact absurd ht (by simp)
      rw [List.filterMap_cons_some (b := (c.key, OtCell.text (c.text d))) (by simp only [ht, if_true])]
      rw [List.filter_cons_of_pos (by simpa using ht), List.filter_cons_of_neg (by simp [hid])]
      exact ih.cons _
    · rcases hb : (c.key == otIdKey p) with _ | _
      · rw [List.filterMap_cons_none (by simp only [ht, hb]; rfl)]
        rw [List.filter_cons_of_neg (by simpa using ht), List.filter_cons_of_neg (by simp [hb])]
        exact ih
      · rw [List.filterMap_cons_some (b := (c.first, OtCell.num v.val)) (by simp only [ht, hb]; rfl)]
        rw [List.filter_cons_of_neg (by simpa using ht), List.filter_cons_of_pos (by simpa using hb)]
        exact (ih.cons _).trans List.perm_middle.symm

theorem OtFit.cells_perm {p T v id} (h : OtFit p T v id) (d : OtDevice) :
    (otCells d p v v.cha).Perm ((otLabel d p v).map (fun e => (e.1, OtCell.text e.2)) ++ [(id, OtCell.num v.val)]) := by
  have h1 := otCells_perm d p v v.cha
  have e1 : (v.cha.filter (fun c => otIsTime p c.key)).map (fun c => (c.key, OtCell.text (c.text d))) = (otLabel d p v).map (fun e => (e.1, OtCell.text e.2)) := by
    unfold otLabel; rw [List.map_map]; rfl
  have e2 : (v.cha.filter (fun c => c.key == otIdKey p)).map (fun c => (c.first, OtCell.num v.val)) = [(id, OtCell.num v.val)] := by
    have : (v.cha.filter (fun c => c.key == otIdKey p)).map (fun c => (c.first, OtCell.num v.val)) =
        ((v.cha.filter (fun c => c.key == otIdKey p)).map (fun c => c.first)).map (fun t => (t, OtCell.num v.val)) := by rw [List.map_map]; rfl
    rw [this, h.ident]; rfl
  rw [e1, e2] at h1
  exact h1

theorem OtFit.cells_nodup {p T v id} (h : OtFit p T v id) (d : OtDevice) : ((otCells d p v v.cha).map Prod.fst).Nodup := by
  have h1 := ((h.cells_perm d).map Prod.fst).nodup_iff.2
  apply h1
  rw [List.map_append, List.map_map]
  have e : (Prod.fst ∘ fun e : Tok × Tok => (e.1, OtCell.text e.2)) = Prod.fst := rfl
  rw [e]
  refine List.nodup_append.2 ⟨h.label_nodup d, by simp, ?_⟩
  intro a ha b hb
  have hb : b = id := by simpa using hb
  have hT : a ∈ T := (h.keys d).mem_iff.1 ha
  rintro rfl
  subst hb
  exact h.apart hT

theorem otFirst_fold (d : OtDevice) (p : OtProblem) (cols : List Tok) (v : OtVal) (l : List OtCha) :
    ∀ s : OtFirst, (∀ c ∈ l, otIsTime p c.key = true → c.key ∈ cols) → (∀ c ∈ l, c.key = otIdKey p → c.first ∈ cols) →
      l.foldlM (otFirstStep d p cols v.val) s =
        .ok ⟨((l.filter (fun c => otIsTime p c.key)).map (fun c => (c.key, c.text d))).foldl (fun m e => rpSet m e.1 e.2) s.ref,
          (otCells d p v l).foldl (fun m e => rpSet m e.1 e.2) s.row, s.used || l.any (fun c => c.key == otIdKey p)⟩ := by
  induction l with
  | nil => intro s _ _; simp [otCells, pure, Except.pure]
  | cons c l ih =>
    intro s h1 h2
    rw [List.foldlM_cons]
    have h1' : ∀ c ∈ l, otIsTime p c.key = true → c.key ∈ cols := fun x hx => h1 x (List.mem_cons_of_mem _ hx)
    have h2' : ∀ c ∈ l, c.key = otIdKey p → c.first ∈ cols := fun x hx => h2 x (List.mem_cons_of_mem _ hx)
    unfold otCells at ih ⊢
    by_cases ht : otIsTime p c.key = true
    · have hid : (c.key == otIdKey p) = false := by
        rcases hb : (c.key == otIdKey p) with _ | _
        · rfl
        · have := beq_iff_eq.1 hb
          rw [this, idKey_not_time] at ht
          exact absurd ht (by simp)
      have e : otFirstStep d p cols v.val s c = .ok ⟨rpSet s.ref c.key (c.text d), rpSet s.row c.key (.text (c.text d)), s.used⟩ := by
        unfold otFirstStep otWrite
        rw [if_pos ht, if_pos (by simpa using h1 c (by simp) ht)]
        rfl
      rw [e]
      show (l.foldlM (otFirstStep d p cols v.val) _ : Except PyErr OtFirst) = _
      rw [ih _ h1' h2']
      rw [List.filterMap_cons_some (b := (c.key, OtCell.text (c.text d))) (by simp only [ht, if_true])]
      rw [List.filter_cons_of_pos (by simpa using ht)]
      simp [hid]
    · rcases hb : (c.key == otIdKey p) with _ | _
      · have e : otFirstStep d p cols v.val s c = .ok s := by
          unfold otFirstStep
          rw [if_neg ht, hb]; rfl
        rw [e]
        show (l.foldlM (otFirstStep d p cols v.val) _ : Except PyErr OtFirst) = _
        rw [ih _ h1' h2']
        rw [List.filterMap_cons_none (by simp only [ht, hb]; rfl), List.filter_cons_of_neg (by simpa using ht)]
        simp [hb]
      · have hc : c.first ∈ cols := h2 c (by simp) (beq_iff_eq.1 hb)
        have e : otFirstStep d p cols v.val s c = .ok ⟨s.ref, rpSet s.row c.first (.num v.val), true⟩ := by
          unfold otFirstStep otWrite
          rw [if_neg ht, if_pos hb, if_pos (by simpa using hc)]
          rfl
        rw [e]
        show (l.foldlM (otFirstStep d p cols v.val) _ : Except PyErr OtFirst) = _
        rw [ih _ h1' h2']
        rw [List.filterMap_cons_some (b := (c.first, OtCell.num v.val)) (by simp only [ht, hb]; rfl), List.filter_cons_of_neg (by simpa using ht)]
        simp [hb]

/-- the columns that a value needs -/
def otNeeds (p : OtProblem) (cols : List Tok) (v : OtVal) : Prop :=
  (∀ c ∈ v.cha, otIsTime p c.key = true → c.key ∈ cols) ∧ (∀ c ∈ v.cha, c.key = otIdKey p → c.first ∈ cols)

/-- the first value of a row -/
theorem otStep_first (d p n pt cols) (v : OtVal) (T id) (h : OtFit p T v id) (hg : otGroup p n pt v = true) (hc : otNeeds p cols v) (s : OtPass) (hs : s.ref = []) (hr : s.row = []) :
    otStep d p n pt cols s (v, false) = .ok (⟨otLabel d p v, otCells d p v v.cha, false⟩, true) := by
  unfold otStep
  simp only [hg, Bool.not_true, Bool.or_false]
  rw [if_neg (by simp), if_pos hs, hs, hr, otFirst_fold d p cols v v.cha _ hc.1 hc.2]
  have e1 : ((v.cha.filter (fun c => otIsTime p c.key)).map (fun c => (c.key, c.text d))).foldl (fun m e => rpSet m e.1 e.2) [] = otLabel d p v :=
    otSet_fold (otLabel d p v) [] (by simpa using h.label_nodup d)
  have e2 : (otCells d p v v.cha).foldl (fun m e => rpSet m e.1 e.2) [] = otCells d p v v.cha := otSet_fold _ [] (by simpa using h.cells_nodup d)
  have e3 : v.cha.any (fun c => c.key == otIdKey p) = true := by
    by_contra hh
    have : v.cha.filter (fun c => c.key == otIdKey p) = [] := by
      rw [List.filter_eq_nil_iff]
      intro c hcm hk
      exact hh (List.any_eq_true.2 ⟨c, hcm, hk⟩)
    have hi := h.ident
    rw [this] at hi
    exact absurd hi (by simp)
  simp only [bind, Except.bind]
  rw [e3, e1, e2]
  rfl

/-- another value while a row is open -/
theorem otStep_next (d p n pt cols) (v : OtVal) (T id) (h : OtFit p T v id) (hg : otGroup p n pt v = true) (hc : otNeeds p cols v) (s : OtPass) (hs : s.ref ≠ []) :
    otStep d p n pt cols s (v, false) =
      if otSame (otLabel d p v) s.ref then .ok (⟨s.ref, rpSet s.row id (.num v.val), false⟩, true) else .ok (s, false) := by
  have hid : id ∈ cols := by
    obtain ⟨c, hf, hx⟩ := List.map_eq_singleton_iff.1 h.ident
    have hm : c ∈ v.cha.filter (fun c => c.key == otIdKey p) := by rw [hf]; simp
    rw [List.mem_filter] at hm
    rw [← hx]
    exact hc.2 c hm.1 (by simpa using hm.2)
  unfold otStep
  simp only [hg, Bool.not_true, Bool.or_false]
  rw [if_neg (by simp), if_neg hs, h.dict, h.lastId]
  by_cases hsame : otSame (otLabel d p v) s.ref = true
  · rw [if_pos hsame, if_pos hsame]
    unfold otWrite
    rw [if_pos (by simpa using hid)]
    rfl
  · rw [if_neg hsame, if_neg hsame]

theorem otStep_skip (d p n pt cols) (s : OtPass) (e : OtVal × Bool) (h : e.2 = true ∨ otGroup p n pt e.1 = false) : otStep d p n pt cols s e = .ok (s, e.2) := by
  unfold otStep
  rw [if_pos]
  rcases h with h | h <;> simp [h]

/-- the values of a group that are still to be written -/
def otOpen (p : OtProblem) (n : Tok) (pt : List Tok) (vs : List (OtVal × Bool)) : List OtVal := (vs.filter (fun e => !e.2 && otGroup p n pt e.1)).map Prod.fst

/-- everything that is to be written can be placed -/
def OtReady (p : OtProblem) (n : Tok) (pt : List Tok) (cols T : List Tok) (ident : OtVal → Tok) (vs : List (OtVal × Bool)) : Prop :=
  ∀ v ∈ otOpen p n pt vs, OtFit p T v (ident v) ∧ otNeeds p cols v

/-- the cells of further values of a row -/
def otMore (ident : OtVal → Tok) (row : OtRow) (l : List OtVal) : OtRow := l.foldl (fun r v => rpSet r (ident v) (.num v.val)) row

theorem otOpen_cons (p n pt) (e : OtVal × Bool) (vs) : otOpen p n pt (e :: vs) = (if e.2 = false ∧ otGroup p n pt e.1 = true then [e.1] else []) ++ otOpen p n pt vs := by
  unfold otOpen
  obtain ⟨v, b⟩ := e
  cases b <;> rcases hg : otGroup p n pt v with _ | _ <;> simp [hg]

/-- marks after a row with label `t` -/
def otMark (d : OtDevice) (p : OtProblem) (n : Tok) (pt : List Tok) (t : List (Tok × Tok)) (e : OtVal × Bool) : OtVal × Bool :=
  (e.1, e.2 || (otGroup p n pt e.1 && otSame (otLabel d p e.1) t))

theorem otPass_open (d p n pt cols T ident) (vs : List (OtVal × Bool)) : ∀ (s : OtPass), OtReady p n pt cols T ident vs → s.ref ≠ [] → s.isEnd = false →
    otPass d p n pt cols s vs =
      .ok (⟨s.ref, otMore ident s.row ((otOpen p n pt vs).filter (fun v => otSame (otLabel d p v) s.ref)), false⟩, vs.map (otMark d p n pt s.ref)) := by
  induction vs with
  | nil =>
    intro s _ _ he
    obtain ⟨a, b, c⟩ := s
    simp only at he
    subst he
    rfl
  | cons e vs ih =>
    intro s hr hs he
    obtain ⟨v, b⟩ := e
    have hr' : OtReady p n pt cols T ident vs := fun x hx => hr x (by rw [otOpen_cons]; exact List.mem_append_right _ hx)
    rw [otPass]
    by_cases hopen : b = false ∧ otGroup p n pt v = true
    · obtain ⟨hb, hg⟩ := hopen
      subst hb
      obtain ⟨hf, hc⟩ := hr v (by rw [otOpen_cons]; simp [hg])
      rw [otStep_next d p n pt cols v T (ident v) hf hg hc s hs]
      have ho : otOpen p n pt ((v, false) :: vs) = v :: otOpen p n pt vs := by rw [otOpen_cons]; simp [hg]
      rw [ho]
      by_cases hsame : otSame (otLabel d p v) s.ref = true
      · rw [if_pos hsame]
        simp only [bind, Except.bind]
        rw [ih ⟨s.ref, rpSet s.row (ident v) (.num v.val), false⟩ hr' hs rfl]
        simp only [List.filter_cons, hsame, if_true, List.map_cons, otMark, hg, Bool.and_true, Bool.or_true, otMore, List.foldl_cons]
      · rw [if_neg hsame]
        simp only [bind, Except.bind]
        rw [ih s hr' hs he]
        have hsame' : otSame (otLabel d p v) s.ref = false := by simpa using hsame
        simp [hsame', otMark]
    · have hskip : b = true ∨ otGroup p n pt v = false := by
        rcases b with _ | _
        · right
          by_contra hh
          exact hopen ⟨rfl, by simpa using hh⟩
        · left; rfl
      rw [otStep_skip d p n pt cols s (v, b) hskip]
      simp only [bind, Except.bind]
      rw [ih s hr' hs he]
      have ho : otOpen p n pt ((v, b) :: vs) = otOpen p n pt vs := by rw [otOpen_cons, if_neg hopen]; simp
      rw [ho]
      have hm : otMark d p n pt s.ref (v, b) = (v, b) := by
        unfold otMark
        rcases hskip with h | h
        · simp [h]
        · simp [h]
      rw [List.map_cons, hm]

/-- a pass: nothing is left, or a row is written for the first value that is -/
theorem otPass_spec (d p n pt cols T ident) (vs : List (OtVal × Bool)) (hr : OtReady p n pt cols T ident vs) :
    otPass d p n pt cols ⟨[], [], true⟩ vs =
      match otOpen p n pt vs with
      | [] => .ok (⟨[], [], true⟩, vs)
      | v :: rest => .ok (⟨otLabel d p v, otMore ident (otCells d p v v.cha) (rest.filter (fun w => otSame (otLabel d p w) (otLabel d p v))), false⟩,
          vs.map (otMark d p n pt (otLabel d p v))) := by
  induction vs with
  | nil => rfl
  | cons e vs ih =>
    obtain ⟨v, b⟩ := e
    have hr' : OtReady p n pt cols T ident vs := fun x hx => hr x (by rw [otOpen_cons]; exact List.mem_append_right _ hx)
    rw [otPass]
    by_cases hopen : b = false ∧ otGroup p n pt v = true
    · obtain ⟨hb, hg⟩ := hopen
      subst hb
      obtain ⟨hf, hc⟩ := hr v (by rw [otOpen_cons]; simp [hg])
      rw [otStep_first d p n pt cols v T (ident v) hf hg hc _ rfl rfl]
      simp only [bind, Except.bind]
      rw [otPass_open d p n pt cols T ident vs _ hr' (hf.label_ne d) rfl]
      have ho : otOpen p n pt ((v, false) :: vs) = v :: otOpen p n pt vs := by rw [otOpen_cons]; simp [hg]
      rw [ho]
      have : otSame (otLabel d p v) (otLabel d p v) = true := (otSame_iff _ _).2 (fun _ => rfl)
      simp [otMark, hg, this]
    · have hskip : b = true ∨ otGroup p n pt v = false := by
        rcases b with _ | _
        · right
          by_contra hh
          exact hopen ⟨rfl, by simpa using hh⟩
        · left; rfl
      rw [otStep_skip d p n pt cols _ (v, b) hskip]
      simp only [bind, Except.bind]
      rw [ih hr']
      have ho : otOpen p n pt ((v, b) :: vs) = otOpen p n pt vs := by rw [otOpen_cons, if_neg hopen]; simp
      rw [ho]
      cases hvs : otOpen p n pt vs with
      | nil => rfl
      | cons w rest =>
        have hm : otMark d p n pt (otLabel d p w) (v, b) = (v, b) := by
          unfold otMark
          rcases hskip with h | h
          · simp [h]
          · simp [h]
        simp [hm]

/-- the row of a value among all those of the table -/
def otRowOf (d : OtDevice) (p : OtProblem) (ident : OtVal → Tok) (M : List OtVal) (m : OtVal) : OtRow :=
  match M.filter (fun w => otSame (otLabel d p w) (otLabel d p m)) with
  | [] => []
  | a :: rest => otMore ident (otCells d p a a.cha) rest

theorem otSame_refl (a) : otSame a a = true := (otSame_iff _ _).2 (fun _ => rfl)
theorem otSame_symm {a b} (h : otSame a b = true) : otSame b a = true := (otSame_iff _ _).2 (fun k => ((otSame_iff _ _).1 h k).symm)
theorem otSame_trans {a b c} (h : otSame a b = true) (h' : otSame b c = true) : otSame a c = true := (otSame_iff _ _).2 (fun k => ((otSame_iff _ _).1 h k).trans ((otSame_iff _ _).1 h' k))

theorem otOpen_mark (d p n pt t) (vs : List (OtVal × Bool)) : otOpen p n pt (vs.map (otMark d p n pt t)) = (otOpen p n pt vs).filter (fun w => !otSame (otLabel d p w) t) := by
  induction vs with
  | nil => rfl
  | cons e vs ih =>
    obtain ⟨v, b⟩ := e
    rw [List.map_cons, otOpen_cons, otOpen_cons, ih, List.filter_append]
    congr 1
    unfold otMark
    cases b <;> rcases hg : otGroup p n pt v with _ | _ <;> rcases hs : otSame (otLabel d p v) t with _ | _ <;> simp [hs]

/-- the loop: one row for each label, in the order in which they appear first -/
theorem otLoop_spec (d p n pt cols T ident) : ∀ (fuel : Nat) (vs : List (OtVal × Bool)), OtReady p n pt cols T ident vs → (otOpen p n pt vs).length < fuel →
    ∃ (L : List OtVal) (vs' : List (OtVal × Bool)), otLoop d p n pt cols fuel vs = .ok (some (L.map (otRowOf d p ident (otOpen p n pt vs)), vs')) ∧
      L.Sublist (otOpen p n pt vs) ∧ L.Pairwise (fun a b => otSame (otLabel d p a) (otLabel d p b) = false) ∧
      (∀ m ∈ otOpen p n pt vs, ∃ l ∈ L, otSame (otLabel d p l) (otLabel d p m) = true) ∧
      vs' = vs.map (fun e => (e.1, e.2 || otGroup p n pt e.1)) := by
  intro fuel
  induction fuel with
  | zero => intro vs _ h; exact absurd h (by omega)
  | succ fuel ih =>
    intro vs hr hlen
    rw [otLoop, otPass_spec d p n pt cols T ident vs hr]
    cases hM : otOpen p n pt vs with
    | nil =>
      refine ⟨[], vs, rfl, by simp, by simp, by simp, ?_⟩
      have : ∀ e ∈ vs, (e.1, e.2 || otGroup p n pt e.1) = e := by
        intro e he
        obtain ⟨v, b⟩ := e
        rcases b with _ | _
        · have : otGroup p n pt v = false := by
            by_contra hh
            have hm : v ∈ otOpen p n pt vs := by
              unfold otOpen
              exact List.mem_map.2 ⟨(v, false), by rw [List.mem_filter]; exact ⟨he, by simpa using hh⟩, rfl⟩
            rw [hM] at hm
            exact absurd hm (by simp)
          simp [this]
        · simp
      have hcongr := List.map_congr_left (f := fun e : OtVal × Bool => (e.1, e.2 || otGroup p n pt e.1)) (g := fun e => e) (l := vs) this
      rw [hcongr, List.map_id']
    | cons v rest =>
      have hvopen : v ∈ otOpen p n pt vs := by rw [hM]; simp
      have hopen' := otOpen_mark d p n pt (otLabel d p v) vs
      have hr' : OtReady p n pt cols T ident (vs.map (otMark d p n pt (otLabel d p v))) := by
        intro x hx
        rw [hopen', List.mem_filter] at hx
        exact hr x hx.1
      have hrest : otOpen p n pt (vs.map (otMark d p n pt (otLabel d p v))) = rest.filter (fun w => !otSame (otLabel d p w) (otLabel d p v)) := by
        rw [hopen', hM]
        simp [otSame_refl]
      have hlen' : (otOpen p n pt (vs.map (otMark d p n pt (otLabel d p v)))).length < fuel := by
        rw [hrest]
        have := List.length_filter_le (fun w => !otSame (otLabel d p w) (otLabel d p v)) rest
        rw [hM] at hlen
        simp only [List.length_cons] at hlen
        omega
      obtain ⟨L, vs', hl, hsub, hpw, hcov, hvs'⟩ := ih _ hr' hlen'
      simp only [bind, Except.bind]
      rw [if_neg (by simp), hl]
      refine ⟨v :: L, vs', ?_, ?_, ?_, ?_, ?_⟩
      · simp only [Option.map_some, List.map_cons]
        congr 3
        congr 1
        · unfold otRowOf
          rw [List.filter_cons, otSame_refl]
          rfl
        · apply List.map_congr_left
          intro l hlL
          have hlm := hsub.subset hlL
          rw [hrest, List.mem_filter] at hlm
          have hne : otSame (otLabel d p l) (otLabel d p v) = false := by simpa using hlm.2
          have hfil : (otOpen p n pt (vs.map (otMark d p n pt (otLabel d p v)))).filter (fun w => otSame (otLabel d p w) (otLabel d p l)) =
              (v :: rest).filter (fun w => otSame (otLabel d p w) (otLabel d p l)) := by
            have hv : otSame (otLabel d p v) (otLabel d p l) = false := by
              rcases hb : otSame (otLabel d p v) (otLabel d p l) with _ | _
              · rfl
              · rw [otSame_symm hb] at hne; exact absurd hne (by simp)
            rw [hrest, List.filter_filter, List.filter_cons, hv]
            apply List.filter_congr
            intro w _
            rcases hb : otSame (otLabel d p w) (otLabel d p l) with _ | _
            · simp
            · have : otSame (otLabel d p w) (otLabel d p v) = false := by
                rcases hb' : otSame (otLabel d p w) (otLabel d p v) with _ | _
                · rfl
                · rw [otSame_trans (otSame_symm hb) hb'] at hne; exact absurd hne (by simp)
              simp [this]
          unfold otRowOf
          rw [hfil]
      · rw [hrest] at hsub
        exact (hsub.trans List.filter_sublist).cons_cons v
      · rw [List.pairwise_cons]
        refine ⟨?_, hpw⟩
        intro l hlL
        have hlm := hsub.subset hlL
        rw [hrest, List.mem_filter] at hlm
        have hne : otSame (otLabel d p l) (otLabel d p v) = false := by simpa using hlm.2
        rcases hb : otSame (otLabel d p v) (otLabel d p l) with _ | _
        · rfl
        · rw [otSame_symm hb] at hne; exact absurd hne (by simp)
      · intro m hm
        by_cases hmv : otSame (otLabel d p v) (otLabel d p m) = true
        · exact ⟨v, by simp, hmv⟩
        · have hm' : m ∈ otOpen p n pt (vs.map (otMark d p n pt (otLabel d p v))) := by
            rw [hopen', List.mem_filter]
            refine ⟨by rw [hM]; exact hm, ?_⟩
            rcases hb : otSame (otLabel d p m) (otLabel d p v) with _ | _
            · rfl
            · exact absurd (otSame_symm hb) hmv
          obtain ⟨l, hl1, hl2⟩ := hcov m hm'
          exact ⟨l, List.mem_cons_of_mem _ hl1, hl2⟩
      · rw [hvs', List.map_map]
        apply List.map_congr_left
        intro e _
        simp only [Function.comp_def, otMark]
        rcases e.2 <;> rcases otGroup p n pt e.1 <;> simp

end Pyensys
