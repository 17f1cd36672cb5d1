import Verif.Model.Glpk
import Verif.Props.AttestOptions
import Mathlib.Tactic.Ring
import Mathlib.Tactic.Linarith

/-!
# From named groups to the linear program

The program that GLPK gets is numbered; the code reads it by name.  If every group has room for its rows, the points of
the linear program are the assignments to the named columns that satisfy the bounds and the rows as written.
-/

namespace Pyensys

/-! ## columns -/

theorem gStart_mem {cols : List (GKey × List GBnd)} (hn : (cols.map (·.1)).Nodup) {g : GKey × List GBnd} (hg : g ∈ cols) :
    ∃ s, gStart cols g.1 = some s ∧ ∀ off, off < g.2.length → (cols.flatMap (·.2))[s + off]? = g.2[off]? := by
  induction cols with
  | nil => simp at hg
  | cons h t ih =>
    rw [List.map_cons, List.nodup_cons] at hn
    rw [List.mem_cons] at hg
    by_cases e : h.1 = g.1
    · have : g = h := by
        rcases hg with h1 | h1
        · exact h1
        · exact absurd (e ▸ List.mem_map_of_mem (f := fun q : GKey × List GBnd => q.1) h1) hn.1
      subst this
      refine ⟨0, by simp [gStart], fun off ho => ?_⟩
      rw [List.flatMap_cons, Nat.zero_add, List.getElem?_append_left ho]
    · rcases hg with rfl | h1
      · exact absurd rfl e
      obtain ⟨s, hs, hb⟩ := ih hn.2 h1
      refine ⟨s + h.2.length, by simp [gStart, e, hs], fun off ho => ?_⟩
      rw [List.flatMap_cons, List.getElem?_append_right (by omega), ← hb off ho]
      congr 1
      omega

theorem gStart_some {cols : List (GKey × List GBnd)} {k : GKey} {s : Nat} (h : gStart cols k = some s) :
    ∃ g ∈ cols, g.1 = k := by
  induction cols generalizing s with
  | nil => simp [gStart] at h
  | cons g t ih =>
    by_cases e : g.1 = k
    · exact ⟨g, List.mem_cons_self, e⟩
    · simp only [gStart, e, if_false, Option.map_eq_some_iff] at h
      obtain ⟨s', h1, _⟩ := h
      obtain ⟨g', h2, h3⟩ := ih h1
      exact ⟨g', List.mem_cons_of_mem _ h2, h3⟩

theorem gFlat_cover (cols : List (GKey × List GBnd)) (hn : (cols.map (·.1)).Nodup) : ∀ c, c < (cols.flatMap (·.2)).length →
    ∃ g ∈ cols, ∃ s off, gStart cols g.1 = some s ∧ off < g.2.length ∧ c = s + off := by
  induction cols with
  | nil => intro c hc; simp at hc
  | cons h t ih =>
    intro c hc
    rw [List.map_cons, List.nodup_cons] at hn
    rw [List.flatMap_cons, List.length_append] at hc
    by_cases hlt : c < h.2.length
    · exact ⟨h, List.mem_cons_self, 0, c, by simp [gStart], hlt, by omega⟩
    · obtain ⟨g, hg, s, off, h1, h2, h3⟩ := ih hn.2 (c - h.2.length) (by omega)
      have e : h.1 ≠ g.1 := fun e => hn.1 (e ▸ List.mem_map_of_mem (f := fun q : GKey × List GBnd => q.1) hg)
      exact ⟨g, List.mem_cons_of_mem _ hg, s + h.2.length, off, by simp [gStart, e, h1], h2, by omega⟩

/-- a point that gives each named column its value -/
theorem gEncode (cols : List (GKey × List GBnd)) (hn : (cols.map (·.1)).Nodup) (v : GKey → Nat → Rat) :
    ∃ x : Nat → Rat, ∀ g ∈ cols, ∀ off, off < g.2.length → x ((gStart cols g.1).getD 0 + off) = v g.1 off := by
  induction cols with
  | nil => exact ⟨fun _ => 0, by simp⟩
  | cons h t ih =>
    rw [List.map_cons, List.nodup_cons] at hn
    obtain ⟨x, hx⟩ := ih hn.2
    refine ⟨fun c => if c < h.2.length then v h.1 c else x (c - h.2.length), ?_⟩
    intro g hg off ho
    by_cases e : h.1 = g.1
    · have : g = h := by
        rcases List.mem_cons.1 hg with h1 | h1
        · exact h1
        · exact absurd (e ▸ List.mem_map_of_mem (f := fun q : GKey × List GBnd => q.1) h1) hn.1
      subst this
      simp [gStart, ho]
    · have h1 : g ∈ t := by
        rcases List.mem_cons.1 hg with h1 | h1
        · exact absurd (by rw [h1]) e
        · exact h1
      obtain ⟨s, hs, _⟩ := gStart_mem hn.2 h1
      have := hx g h1 off ho
      rw [hs] at this
      simp only [Option.getD_some] at this
      rw [← this]
      simp only [gStart, e, if_false, hs, Option.map_some, Option.getD_some]
      rw [if_neg (by omega)]
      congr 1
      omega

/-! ## rows -/

/-- every group has room for its rows, and each is written once -/
def GFits (gs : List GRows) : Prop := ∀ g ∈ gs, (∀ r ∈ g.rows, r.off < g.size) ∧ (g.rows.map (·.off)).Nodup

instance (gs : List GRows) : Decidable (GFits gs) := by unfold GFits; infer_instance

theorem gNumber_ge (gs : List GRows) : ∀ s, ∀ q ∈ gNumber gs s, s ≤ q.1 := by
  induction gs with
  | nil => intro s q hq; simp [gNumber] at hq
  | cons g t ih =>
    intro s q hq
    rw [gNumber, List.mem_append] at hq
    rcases hq with h | h
    · obtain ⟨r, _, rfl⟩ := List.mem_map.1 h
      simp
    · have := ih _ q h
      omega

theorem gNumber_nodup (gs : List GRows) (hf : GFits gs) : ∀ s, ((gNumber gs s).map (·.1)).Nodup := by
  induction gs with
  | nil => intro s; simp [gNumber]
  | cons g t ih =>
    intro s
    have hg := hf g List.mem_cons_self
    rw [gNumber, List.map_append, List.nodup_append]
    refine ⟨?_, ih (fun g' h => hf g' (List.mem_cons_of_mem _ h)) _, ?_⟩
    · rw [List.map_map]
      have : (g.rows.map ((fun q : Nat × GRow => q.1) ∘ fun r => (s + r.off, r))) = (g.rows.map (·.off)).map (s + ·) := by
        rw [List.map_map]; rfl
      rw [this]
      exact hg.2.map (fun a b h => by simpa using h)
    · intro a ha b hb hab
      obtain ⟨q, hq, rfl⟩ := List.mem_map.1 ha
      obtain ⟨r, hr, rfl⟩ := List.mem_map.1 hq
      obtain ⟨q', hq', rfl⟩ := List.mem_map.1 hb
      have h1 := gNumber_ge t _ q' hq'
      have h2 := hg.1 r hr
      simp only at hab
      omega

theorem gNumber_mem (gs : List GRows) : ∀ s, ∀ g ∈ gs, ∀ r ∈ g.rows, ∃ n, (n, r) ∈ gNumber gs s := by
  induction gs with
  | nil => intro s g hg; simp at hg
  | cons h t ih =>
    intro s g hg r hr
    rcases List.mem_cons.1 hg with rfl | h1
    · exact ⟨s + r.off, by rw [gNumber, List.mem_append]; exact .inl (List.mem_map.2 ⟨r, hr, rfl⟩)⟩
    · obtain ⟨n, hn⟩ := ih (s + h.size) g h1 r hr
      exact ⟨n, by rw [gNumber, List.mem_append]; exact .inr hn⟩

theorem gNumber_from (gs : List GRows) : ∀ s, ∀ q ∈ gNumber gs s, ∃ g ∈ gs, q.2 ∈ g.rows := by
  induction gs with
  | nil => intro s q hq; simp [gNumber] at hq
  | cons h t ih =>
    intro s q hq
    rw [gNumber, List.mem_append] at hq
    rcases hq with h1 | h1
    · obtain ⟨r, hr, rfl⟩ := List.mem_map.1 h1
      exact ⟨h, List.mem_cons_self, hr⟩
    · obtain ⟨g, hg, hr⟩ := ih _ q h1
      exact ⟨g, List.mem_cons_of_mem _ hg, hr⟩

/-! ## the parts of a successful build -/

structure GBuilt (p : GProb) (lp : GLp) : Prop where
  colKeys : (p.cols.map (·.1)).Nodup
  colSizes : ∀ g ∈ p.cols, g.2 ≠ []
  rowKeys : (p.rows.map (·.key)).Nodup
  rowSizes : ∀ g ∈ p.rows, g.size ≠ 0
  rows : (gNumber p.rows 0).mapM (gRowTerms p) = .ok lp.rows
  obj : p.obj.mapM (gTerm p) = .ok lp.obj
  nrows : lp.nrows = (p.rows.map (·.size)).sum
  cols : lp.cols = p.cols.flatMap (·.2)
  inside : ∀ r ∈ lp.rows, r.1 < lp.nrows ∧ ∀ t ∈ r.2.1, t.1 < lp.cols.length
  places : (gPlaces lp.rows).Nodup

theorem gBuild_iff (p : GProb) (lp : GLp) : gBuild p = .ok lp ↔ GBuilt p lp := by
  constructor
  · intro h
    unfold gBuild at h
    split at h; · simp at h
    split at h; · simp at h
    split at h; · simp at h
    split at h; · simp at h
    rename_i h1 h2 h3 h4
    split at h
    · simp at h
    · simp at h
    · rename_i rows obj e1 e2
      simp only at h
      split at h; · simp at h
      split at h; · simp at h
      rename_i h5 h6
      rw [Except.ok.injEq] at h
      subst h
      exact ⟨not_not.1 h1, not_not.1 h2, not_not.1 h3, not_not.1 h4, e1, e2, rfl, rfl, not_not.1 h5, not_not.1 h6⟩
  · intro h
    unfold gBuild
    rw [if_neg (not_not.2 h.colKeys), if_neg (not_not.2 h.colSizes), if_neg (not_not.2 h.rowKeys), if_neg (not_not.2 h.rowSizes),
      h.rows, h.obj]
    simp only
    rw [← h.nrows, ← h.cols, if_neg (not_not.2 h.inside), if_neg (not_not.2 h.places)]

/-! ## the points of the program -/

theorem gTerm_ok {p : GProb} {t : GCol × Rat} {u : Nat × Rat} (h : gTerm p t = .ok u) (x : Nat → Rat) :
    u.2 * x u.1 = t.2 * p.val x t.1.1 t.1.2 := by
  unfold gTerm GProb.col at h
  unfold GProb.val
  cases hs : gStart p.cols t.1.1 with
  | none => rw [hs] at h; simp at h
  | some s =>
    rw [hs] at h
    simp only [Option.map_some, Except.ok.injEq] at h
    subst h
    simp

theorem gTerms_sum {p : GProb} {ts : List (GCol × Rat)} {us : List (Nat × Rat)} (h : ts.mapM (gTerm p) = .ok us) (x : Nat → Rat) :
    (us.map (fun t => t.2 * x t.1)).sum = (ts.map (fun t => t.2 * p.val x t.1.1 t.1.2)).sum := by
  rw [mapM_ok_iff] at h
  induction h with
  | nil => rfl
  | cons h1 _ ih => rw [List.map_cons, List.map_cons, List.sum_cons, List.sum_cons, gTerm_ok h1 x, ih]

/-- the value of a row as it is written -/
def GProb.rowVal (p : GProb) (x : Nat → Rat) (r : GRow) : Rat := (r.terms.map (fun t => t.2 * p.val x t.1.1 t.1.2)).sum

theorem filter_key {α : Type} : ∀ (l : List (Nat × α)), (l.map (·.1)).Nodup → ∀ q ∈ l, l.filter (fun r => r.1 == q.1) = [q] := by
  intro l
  induction l with
  | nil => intro _ q hq; simp at hq
  | cons a t ih =>
    intro hn q hq
    rw [List.map_cons, List.nodup_cons] at hn
    rcases List.mem_cons.1 hq with rfl | h1
    · rw [List.filter_cons_of_pos (by simp)]
      congr 1
      rw [List.filter_eq_nil_iff]
      intro r hr
      simp only [beq_iff_eq]
      intro e
      exact hn.1 (e ▸ List.mem_map_of_mem (f := fun q : Nat × α => q.1) hr)
    · rw [List.filter_cons_of_neg, ih hn.2 q h1]
      simp only [beq_iff_eq]
      intro e
      exact hn.1 (e ▸ List.mem_map_of_mem (f := fun q : Nat × α => q.1) h1)

theorem gRows_spec {p : GProb} {lp : GLp} (h : GBuilt p lp) : List.Forall₂ (fun (r : Nat × GRow) q => q.1 = r.1 ∧ q.2.2 = r.2.bnd ∧
    ∀ x, (q.2.1.map (fun t => t.2 * x t.1)).sum = p.rowVal x r.2) (gNumber p.rows 0) lp.rows := by
  have := h.rows
  rw [mapM_ok_iff] at this
  refine this.imp ?_
  intro r q hq
  unfold gRowTerms at hq
  rw [except_bind_ok] at hq
  obtain ⟨ts, h1, h2⟩ := hq
  rw [Except.ok.injEq] at h2
  subst h2
  exact ⟨rfl, rfl, fun x => gTerms_sum h1 x⟩

theorem forall₂_left {α β : Type} {R : α → β → Prop} {l : List α} {r : List β} (h : List.Forall₂ R l r) {a : α} (ha : a ∈ l) :
    ∃ b ∈ r, R a b := by
  induction h with
  | nil => simp at ha
  | cons h1 _ ih =>
    rcases List.mem_cons.1 ha with rfl | h2
    · exact ⟨_, List.mem_cons_self, h1⟩
    · obtain ⟨b, hb, hr⟩ := ih h2
      exact ⟨b, List.mem_cons_of_mem _ hb, hr⟩

theorem forall₂_right {α β : Type} {R : α → β → Prop} {l : List α} {r : List β} (h : List.Forall₂ R l r) {b : β} (hb : b ∈ r) :
    ∃ a ∈ l, R a b := by
  induction h with
  | nil => simp at hb
  | cons h1 _ ih =>
    rcases List.mem_cons.1 hb with rfl | h2
    · exact ⟨_, List.mem_cons_self, h1⟩
    · obtain ⟨a, ha, hr⟩ := ih h2
      exact ⟨a, List.mem_cons_of_mem _ ha, hr⟩

/-- the points of the linear program, by name -/
structure GNamed (p : GProb) (x : Nat → Rat) : Prop where
  cols : ∀ g ∈ p.cols, ∀ (off : Nat) (b : GBnd), g.2[off]? = some b → b.holds (p.val x g.1 off)
  rows : ∀ g ∈ p.rows, ∀ r ∈ g.rows, r.bnd.holds (p.rowVal x r)

theorem gFeasible_cols {p : GProb} {lp : GLp} (h : GBuilt p lp) (x : Nat → Rat) :
    (∀ (c : Nat) (b : GBnd), lp.cols[c]? = some b → b.holds (x c)) ↔
      ∀ g ∈ p.cols, ∀ (off : Nat) (b : GBnd), g.2[off]? = some b → b.holds (p.val x g.1 off) := by
  constructor
  · intro hc g hg off b hb
    obtain ⟨s, hs, hflat⟩ := gStart_mem h.colKeys hg
    have ho := (List.getElem?_eq_some_iff.1 hb).1
    have := hc (s + off) b (by rw [h.cols, hflat off ho, hb])
    simpa [GProb.val, hs] using this
  · intro hc c b hb
    rw [h.cols] at hb
    obtain ⟨g, hg, s, off, h1, h2, rfl⟩ := gFlat_cover p.cols h.colKeys c (List.getElem?_eq_some_iff.1 hb).1
    obtain ⟨s', hs', hflat⟩ := gStart_mem h.colKeys hg
    rw [h1, Option.some.injEq] at hs'
    subst hs'
    rw [hflat off h2] at hb
    have := hc g hg off b hb
    simpa [GProb.val, h1] using this

theorem gFeasible_iff {p : GProb} {lp : GLp} (hb : gBuild p = .ok lp) (hf : GFits p.rows) (x : Nat → Rat) :
    GFeasible lp x ↔ GNamed p x := by
  have h := (gBuild_iff p lp).1 hb
  have hspec := gRows_spec h
  have hnum : lp.rows.map (·.1) = (gNumber p.rows 0).map (·.1) := by
    clear hb h
    generalize gNumber p.rows 0 = l at hspec
    generalize lp.rows = r at hspec
    induction hspec with
    | nil => rfl
    | cons h1 _ ih => rw [List.map_cons, List.map_cons, ih, h1.1]
  have hnd : (lp.rows.map (·.1)).Nodup := hnum ▸ gNumber_nodup p.rows hf 0
  constructor
  · intro hx
    refine ⟨(gFeasible_cols h x).1 hx.cols, ?_⟩
    intro g hg r hr
    obtain ⟨n, hn⟩ := gNumber_mem p.rows 0 g hg r hr
    obtain ⟨q, hq, h1, h2, h3⟩ := forall₂_left hspec hn
    have := hx.rows q.1 (h.inside q hq).1
    unfold GLp.rowBnd GLp.rowVal at this
    rw [filter_key lp.rows hnd q hq] at this
    simp only [List.getLast?_singleton, List.map_cons, List.map_nil, List.sum_cons, List.sum_nil, add_zero] at this
    rw [h2, h3] at this
    exact this
  · intro hx
    refine ⟨(gFeasible_cols h x).2 hx.cols, ?_⟩
    intro r _
    unfold GLp.rowBnd GLp.rowVal
    by_cases he : ∃ q ∈ lp.rows, q.1 = r
    · obtain ⟨q, hq, rfl⟩ := he
      rw [filter_key lp.rows hnd q hq]
      simp only [List.getLast?_singleton, List.map_cons, List.map_nil, List.sum_cons, List.sum_nil, add_zero]
      obtain ⟨a, ha, _, h2, h3⟩ := forall₂_right hspec hq
      obtain ⟨g, hg, hr⟩ := gNumber_from p.rows 0 a ha
      rw [h2, h3]
      exact hx.rows g hg a.2 hr
    · have : lp.rows.filter (fun q => q.1 == r) = [] := by
        rw [List.filter_eq_nil_iff]
        intro q hq
        simp only [beq_iff_eq]
        exact fun e => he ⟨q, hq, e⟩
      rw [this]
      simp [GBnd.holds]

theorem gCost_eq {p : GProb} {lp : GLp} (h : GBuilt p lp) (x : Nat → Rat) :
    lp.cost x = (p.obj.map (fun t => t.2 * p.val x t.1.1 t.1.2)).sum := by
  unfold GLp.cost
  exact gTerms_sum h.obj x

/-- bounds of a column by name -/
theorem gFeasible_bound {p : GProb} {lp : GLp} (hb : gBuild p = .ok lp) {x : Nat → Rat} (hx : GFeasible lp x)
    {k : GKey} {bs : List GBnd} (hg : (k, bs) ∈ p.cols) {off : Nat} {b : GBnd} (ho : bs[off]? = some b) : b.holds (p.val x k off) :=
  (gFeasible_cols ((gBuild_iff p lp).1 hb) x).1 hx.cols (k, bs) hg off b ho

/-! ## when the wrapper accepts a program -/

theorem gStart_inj {cols : List (GKey × List GBnd)} (hn : (cols.map (·.1)).Nodup) {g g' : GKey × List GBnd} (hg : g ∈ cols)
    (hg' : g' ∈ cols) {s s' off off' : Nat} (hs : gStart cols g.1 = some s) (hs' : gStart cols g'.1 = some s')
    (ho : off < g.2.length) (ho' : off' < g'.2.length) (h : s + off = s' + off') : g.1 = g'.1 ∧ off = off' := by
  induction cols generalizing s s' with
  | nil => simp at hg
  | cons a t ih =>
    rw [List.map_cons, List.nodup_cons] at hn
    have key : ∀ b : GKey × List GBnd, b ∈ a :: t → a.1 = b.1 → b = a := by
      intro b hb e
      rcases List.mem_cons.1 hb with h1 | h1
      · exact h1
      · exact absurd (e ▸ List.mem_map_of_mem (f := fun q : GKey × List GBnd => q.1) h1) hn.1
    have rest : ∀ b : GKey × List GBnd, b ∈ a :: t → a.1 ≠ b.1 → b ∈ t := by
      intro b hb e
      rcases List.mem_cons.1 hb with h1 | h1
      · exact absurd (by rw [h1]) e
      · exact h1
    by_cases e : a.1 = g.1
    · have hga := key g hg e
      simp only [gStart, e, if_true, Option.some.injEq] at hs
      subst hs
      by_cases e' : a.1 = g'.1
      · simp only [gStart, e', if_true, Option.some.injEq] at hs'
        subst hs'
        exact ⟨by rw [← e, ← e'], by omega⟩
      · simp only [gStart, e', if_false, Option.map_eq_some_iff] at hs'
        obtain ⟨s1, _, rfl⟩ := hs'
        rw [hga] at ho
        omega
    · simp only [gStart, e, if_false, Option.map_eq_some_iff] at hs
      obtain ⟨s1, h1, rfl⟩ := hs
      by_cases e' : a.1 = g'.1
      · have hga := key g' hg' e'
        simp only [gStart, e', if_true, Option.some.injEq] at hs'
        subst hs'
        rw [hga] at ho'
        omega
      · simp only [gStart, e', if_false, Option.map_eq_some_iff] at hs'
        obtain ⟨s2, h2, rfl⟩ := hs'
        exact ih hn.2 (rest g hg e) (rest g' hg' e') h1 h2 (by omega)

/-- the column exists -/
def GProb.has (p : GProb) (c : GCol) : Prop := ∃ bs, (c.1, bs) ∈ p.cols ∧ c.2 < bs.length

/-- what the wrapper asks for -/
structure GGood (p : GProb) : Prop where
  colKeys : (p.cols.map (·.1)).Nodup
  colSizes : ∀ g ∈ p.cols, g.2 ≠ []
  rowKeys : (p.rows.map (·.key)).Nodup
  rowSizes : ∀ g ∈ p.rows, g.size ≠ 0
  fits : GFits p.rows
  terms : ∀ g ∈ p.rows, ∀ r ∈ g.rows, (r.terms.map (·.1)).Nodup ∧ ∀ t ∈ r.terms, p.has t.1
  obj : ∀ t ∈ p.obj, p.has t.1

theorem gHas_col {p : GProb} (hn : (p.cols.map (·.1)).Nodup) {c : GCol} (h : p.has c) :
    ∃ n, p.col c = some n ∧ n < (p.cols.flatMap (·.2)).length := by
  obtain ⟨bs, h1, h2⟩ := h
  obtain ⟨s, hs, hb⟩ := gStart_mem hn h1
  refine ⟨s + c.2, by simp only [GProb.col]; rw [hs]; simp, ?_⟩
  have := hb c.2 h2
  rw [List.getElem?_eq_getElem h2] at this
  exact (List.getElem?_eq_some_iff.1 this).1

theorem gCol_inj {p : GProb} (hn : (p.cols.map (·.1)).Nodup) {c c' : GCol} (h : p.has c) (h' : p.has c') {n : Nat}
    (e : p.col c = some n) (e' : p.col c' = some n) : c = c' := by
  obtain ⟨bs, h1, h2⟩ := h
  obtain ⟨bs', h1', h2'⟩ := h'
  simp only [GProb.col, Option.map_eq_some_iff] at e e'
  obtain ⟨s, e1, e2⟩ := e
  obtain ⟨s', e1', e2'⟩ := e'
  have := gStart_inj hn h1 h1' e1 e1' h2 h2' (by omega)
  exact Prod.ext this.1 this.2

theorem gTerms_ok {p : GProb} (hn : (p.cols.map (·.1)).Nodup) (ts : List (GCol × Rat)) (h : ∀ t ∈ ts, p.has t.1) :
    ts.mapM (gTerm p) = .ok (ts.map (fun t => ((p.col t.1).getD 0, t.2))) := by
  rw [mapM_ok_iff]
  induction ts with
  | nil => exact .nil
  | cons t r ih =>
    refine .cons ?_ (ih (fun u hu => h u (List.mem_cons_of_mem _ hu)))
    obtain ⟨n, hn', _⟩ := gHas_col hn (h t List.mem_cons_self)
    simp [gTerm, hn']

theorem gNumber_lt (gs : List GRows) (hf : GFits gs) : ∀ s, ∀ q ∈ gNumber gs s, q.1 < s + (gs.map (·.size)).sum := by
  induction gs with
  | nil => intro s q hq; simp [gNumber] at hq
  | cons g t ih =>
    intro s q hq
    rw [gNumber, List.mem_append] at hq
    rw [List.map_cons, List.sum_cons]
    rcases hq with h1 | h1
    · obtain ⟨r, hr, rfl⟩ := List.mem_map.1 h1
      have := (hf g List.mem_cons_self).1 r hr
      simp only
      omega
    · have := ih (fun g' h => hf g' (List.mem_cons_of_mem _ h)) _ q h1
      omega

/-- the wrapper accepts such a program -/
theorem gBuild_ok {p : GProb} (h : GGood p) : ∃ lp, gBuild p = .ok lp := by
  have hrows : (gNumber p.rows 0).mapM (gRowTerms p) =
      .ok ((gNumber p.rows 0).map (fun q => (q.1, q.2.terms.map (fun t => ((p.col t.1).getD 0, t.2)), q.2.bnd))) := by
    rw [mapM_ok_iff]
    have : ∀ q ∈ gNumber p.rows 0, ∀ t ∈ q.2.terms, p.has t.1 := by
      intro q hq
      obtain ⟨g, hg, hr⟩ := gNumber_from p.rows 0 q hq
      exact (h.terms g hg q.2 hr).2
    revert this
    generalize gNumber p.rows 0 = l
    intro hl
    induction l with
    | nil => exact .nil
    | cons q t ih =>
      refine .cons ?_ (ih (fun u hu => hl u (List.mem_cons_of_mem _ hu)))
      simp only [gRowTerms, gTerms_ok h.colKeys _ (hl q List.mem_cons_self), bind, Except.bind]
  refine ⟨⟨p.cols.flatMap (·.2), (p.rows.map (·.size)).sum, _, _⟩, (gBuild_iff p _).2 ⟨h.colKeys, h.colSizes, h.rowKeys, h.rowSizes,
    hrows, gTerms_ok h.colKeys _ h.obj, rfl, rfl, ?_, ?_⟩⟩
  · intro r hr
    obtain ⟨q, hq, rfl⟩ := List.mem_map.1 hr
    refine ⟨by have := gNumber_lt p.rows h.fits 0 q hq; simpa using this, ?_⟩
    intro t ht
    obtain ⟨u, hu, rfl⟩ := List.mem_map.1 ht
    obtain ⟨g, hg, hgr⟩ := gNumber_from p.rows 0 q hq
    obtain ⟨n, hn, hlt⟩ := gHas_col h.colKeys ((h.terms g hg q.2 hgr).2 u hu)
    simp only [hn, Option.getD_some]
    exact hlt
  · unfold gPlaces
    simp only
    rw [List.flatMap_map]
    have hnd := gNumber_nodup p.rows h.fits 0
    have hterms : ∀ q ∈ gNumber p.rows 0, (q.2.terms.map (·.1)).Nodup ∧ ∀ t ∈ q.2.terms, p.has t.1 := by
      intro q hq
      obtain ⟨g, hg, hr⟩ := gNumber_from p.rows 0 q hq
      exact h.terms g hg q.2 hr
    revert hnd hterms
    generalize gNumber p.rows 0 = l
    intro hnd hterms
    induction l with
    | nil => simp
    | cons q t ih =>
      rw [List.map_cons, List.nodup_cons] at hnd
      rw [List.flatMap_cons, List.nodup_append]
      refine ⟨?_, ih hnd.2 (fun u hu => hterms u (List.mem_cons_of_mem _ hu)), ?_⟩
      · obtain ⟨h1, h2⟩ := hterms q List.mem_cons_self
        revert h1 h2
        generalize q.2.terms = ts
        intro h1 h2
        induction ts with
        | nil => simp
        | cons a r ihr =>
          rw [List.map_cons, List.nodup_cons] at h1
          rw [List.map_cons, List.map_cons, List.nodup_cons]
          refine ⟨?_, ihr h1.2 (fun u hu => h2 u (List.mem_cons_of_mem _ hu))⟩
          intro hmem
          rw [List.map_map] at hmem
          obtain ⟨b, hb, e⟩ := List.mem_map.1 hmem
          simp only [Function.comp_apply, Prod.mk.injEq, true_and] at e
          obtain ⟨n, hn, _⟩ := gHas_col h.colKeys (h2 a List.mem_cons_self)
          obtain ⟨m, hm, _⟩ := gHas_col h.colKeys (h2 b (List.mem_cons_of_mem _ hb))
          rw [hn, hm] at e
          simp only [Option.getD_some] at e
          subst e
          have := gCol_inj h.colKeys (h2 a List.mem_cons_self) (h2 b (List.mem_cons_of_mem _ hb)) hn hm
          exact h1.1 (this ▸ List.mem_map_of_mem hb)
      · intro a ha b hb hab
        obtain ⟨u, hu, rfl⟩ := List.mem_map.1 ha
        obtain ⟨q', hq', hb'⟩ := List.mem_flatMap.1 hb
        obtain ⟨u', hu', rfl⟩ := List.mem_map.1 hb'
        rw [Prod.mk.injEq] at hab
        exact hnd.1 (hab.1 ▸ List.mem_map_of_mem (f := fun q : Nat × GRow => q.1) hq')

/-- `glp_simplex` starts -/
theorem gSimplex_ok {p : GProb} {lp : GLp} (hb : gBuild p = .ok lp) (hc : ∀ g ∈ p.cols, ∀ b ∈ g.2, b.bad = false)
    (hr : ∀ g ∈ p.rows, ∀ r ∈ g.rows, r.bnd.bad = false) : gSimplex lp = .ok () := by
  have h := (gBuild_iff p lp).1 hb
  unfold gSimplex
  rw [if_neg]
  simp only [Bool.or_eq_true, List.any_eq_true, not_or, not_exists, not_and, Bool.not_eq_true]
  refine ⟨?_, ?_⟩
  · intro b hb
    rw [h.cols] at hb
    obtain ⟨g, hg, hbg⟩ := List.mem_flatMap.1 hb
    exact hc g hg b hbg
  · intro r _
    unfold GLp.rowBnd
    cases hl : (lp.rows.filter (fun q => q.1 == r)).getLast? with
    | none => rfl
    | some q =>
      have hq := List.mem_of_getLast? hl
      rw [List.mem_filter] at hq
      obtain ⟨a, ha, _, h2, _⟩ := forall₂_right (gRows_spec h) hq.1
      obtain ⟨g, hg, hgr⟩ := gNumber_from p.rows 0 a ha
      simp only [h2]
      exact hr g hg a.2 hgr

/-- an assignment to the named columns is a point of the program -/
theorem gPoint {p : GProb} {lp : GLp} (hb : gBuild p = .ok lp) (hg : GGood p) (v : GKey → Nat → Rat)
    (hc : ∀ g ∈ p.cols, ∀ (off : Nat) (b : GBnd), g.2[off]? = some b → b.holds (v g.1 off))
    (hr : ∀ g ∈ p.rows, ∀ r ∈ g.rows, r.bnd.holds ((r.terms.map (fun t => t.2 * v t.1.1 t.1.2)).sum)) :
    ∃ x, GFeasible lp x ∧ ∀ c, p.has c → p.val x c.1 c.2 = v c.1 c.2 := by
  obtain ⟨x, hx⟩ := gEncode p.cols hg.colKeys v
  have hval : ∀ c, p.has c → p.val x c.1 c.2 = v c.1 c.2 := by
    intro c ⟨bs, h1, h2⟩
    exact hx (c.1, bs) h1 c.2 h2
  refine ⟨x, (gFeasible_iff hb hg.fits x).2 ⟨?_, ?_⟩, hval⟩
  · intro g hgm off b hb'
    rw [hval (g.1, off) ⟨g.2, hgm, (List.getElem?_eq_some_iff.1 hb').1⟩]
    exact hc g hgm off b hb'
  · intro g hgm r hrm
    have : p.rowVal x r = (r.terms.map (fun t => t.2 * v t.1.1 t.1.2)).sum := by
      unfold GProb.rowVal
      congr 1
      apply List.map_congr_left
      intro t ht
      rw [hval t.1 ((hg.terms g hgm r hrm).2 t ht)]
    rw [this]
    exact hr g hgm r hrm

end Pyensys
