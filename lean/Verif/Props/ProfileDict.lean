import Verif.Model.ProfileDict
import Verif.Props.Profiles
import Verif.Props.AttestOptions

/-! # C230: profiles in the original format drive the elements they name -/

namespace Pyensys

/-! ## specification -/

/-- the table of a profile (given in the document or in a sheet of a workbook) and the columns that are used -/
structure OpGiven (book : String → Except PyErr Frame) (d : OpDict) (f : Frame) (act : List String) : Prop where
  table : (d.data = some f.rows ∧ d.names = some f.columns) ∨
    ((d.data = none ∨ d.names = none) ∧ d.path = some ".xlsx" ∧ ∃ s, d.sheet = some s ∧ book s = .ok f)
  shape : f.Rectangular
  names : f.columns.Nodup
  active : d.active = some act ∨ (d.active = none ∧ d.allActive = true ∧ act = f.columns)

/-- the mean of column `c` over time step `t` of `n`: the rows of a step are consecutive and as many for every step -/
def stepMean (f : Frame) (n t c : Nat) : Rat :=
  (∑ s ∈ Finset.range (f.rows.length / n), f.entry (t * (f.rows.length / n) + s) c) / ((f.rows.length / n : Nat) : Rat)

/-- a dictionary names the variable of an element -/
def OpNames (d : OpDict) (ty va : String) (i : Int) : Prop := d.type = some ty ∧ d.var = some va ∧ i ∈ d.indexes.getD []

/-! ## lemmas -/

theorem op_filter_nil (cols : List String) (row : List Rat) (name : String) (h : name ∉ cols) : (cols.zip row).filter (fun e => e.1 == name) = [] := by
  rw [List.filter_eq_nil_iff]
  rintro ⟨a, b⟩ he hc
  have := (List.of_mem_zip he).1
  simp only [beq_iff_eq] at hc
  exact h (hc ▸ this)

theorem op_filter (cols : List String) : ∀ (row : List Rat) (name : String), cols.Nodup → row.length = cols.length → name ∈ cols →
    (cols.zip row).filter (fun e => e.1 == name) = [(name, row.getD (cols.idxOf name) 0)] := by
  induction cols with
  | nil => intro _ _ _ _ h; cases h
  | cons c cols ih =>
    intro row name hn hl hm
    rw [List.nodup_cons] at hn
    cases row with
    | nil => simp at hl
    | cons x row =>
      rw [List.zip_cons_cons, List.filter_cons]
      by_cases hc : c = name
      · subst hc
        rw [if_pos (by simp), op_filter_nil cols row c hn.1]
        simp
      · rw [if_neg (by simpa using hc), ih row name hn.2 (by simpa using hl) (by simpa [Ne.symm hc] using hm)]
        rw [List.idxOf_cons_ne _ hc]
        rfl

theorem op_columns_iff (cols : List String) (row : List Rat) (name : String) (hn : cols.Nodup) (hl : row.length = cols.length) (v : List Rat) :
    opColumns cols row name = .ok v ↔ name ∈ cols ∧ v = [row.getD (cols.idxOf name) 0] := by
  unfold opColumns
  by_cases h : name ∈ cols
  · rw [op_filter cols row name hn hl h]
    constructor
    · intro h'; injection h' with h'; exact ⟨h, h'.symm⟩
    · rintro ⟨-, rfl⟩; rfl
  · rw [op_filter_nil cols row name h]
    constructor
    · intro h'; cases h'
    · rintro ⟨h', -⟩; exact absurd h' h

theorem op_map_iff (cols : List String) (row : List Rat) (hn : cols.Nodup) (hl : row.length = cols.length) (a : List String) : ∀ (v : List (List Rat)),
    a.mapM (opColumns cols row) = .ok v ↔ (∀ x ∈ a, x ∈ cols) ∧ v = a.map (fun x => [row.getD (cols.idxOf x) 0]) := by
  intro v
  rw [mapM_ok_iff]
  constructor
  · intro h
    induction h with
    | nil => simp
    | cons h1 _ ih =>
      obtain ⟨h2, h3⟩ := (op_columns_iff _ _ _ hn hl _).mp h1
      refine ⟨?_, ?_⟩
      · intro x hx
        rcases List.mem_cons.mp hx with rfl | hx
        · exact h2
        · exact ih.1 x hx
      · rw [h3, ih.2]; rfl
  · rintro ⟨h, rfl⟩
    induction a with
    | nil => exact List.Forall₂.nil
    | cons x a ih =>
      exact List.Forall₂.cons ((op_columns_iff _ _ _ hn hl _).mpr ⟨h x (by simp), rfl⟩) (ih (fun y hy => h y (by simp [hy])))

theorem op_flatten (a : List String) (g : String → Rat) : (a.map (fun x => [g x])).flatten = a.map g := by
  induction a with
  | nil => rfl
  | cons x a ih => simp [ih]

theorem op_select_iff (f : Frame) (hr : f.Rectangular) (hn : f.columns.Nodup) (a : List String) (t : Nat) (v : List Rat) :
    opSelect f a t = .ok v ↔ t < f.rows.length ∧ (∀ x ∈ a, x ∈ f.columns) ∧ v = a.map (fun x => f.entry t (f.columns.idxOf x)) := by
  unfold opSelect
  by_cases ht : t < f.rows.length
  · rw [List.getElem?_eq_getElem ht]
    have hl : f.rows[t].length = f.columns.length := hr _ (List.getElem_mem ht)
    have he : ∀ x, f.entry t x = f.rows[t].getD x 0 := by
      intro x
      unfold Frame.entry
      rw [List.getD_eq_getElem?_getD (l := f.rows), List.getElem?_eq_getElem ht, Option.getD_some]
    simp only [he]
    constructor
    · intro h
      cases hm : a.mapM (opColumns f.columns f.rows[t]) with
      | error e => rw [hm] at h; cases h
      | ok w =>
        rw [hm] at h
        have h2 : List.flatten w = v := by injection h
        obtain ⟨h3, h4⟩ := (op_map_iff _ _ hn hl a w).mp hm
        rw [h4, op_flatten a (fun x => f.rows[t].getD (f.columns.idxOf x) 0)] at h2
        exact ⟨ht, h3, h2.symm⟩
    · rintro ⟨-, h3, rfl⟩
      rw [(op_map_iff _ _ hn hl a _).mpr ⟨h3, rfl⟩]
      show Except.ok _ = _
      rw [op_flatten a (fun x => f.rows[t].getD (f.columns.idxOf x) 0)]
  · rw [List.getElem?_eq_none (by omega)]
    constructor
    · intro h; cases h
    · rintro ⟨h, -⟩; exact absurd h ht

theorem opSet_other (ty va : String) (t v : String) (i : Int) : ∀ (l : List (Int × Rat)) (net : OpNet), ¬ (t = ty ∧ v = va ∧ i ∈ l.map Prod.fst) → l.foldl (opSet ty va) net t v i = net t v i := by
  intro l
  induction l with
  | nil => intro net _; rfl
  | cons e l ih =>
    intro net h
    rw [List.foldl_cons, ih _ (fun hh => h ⟨hh.1, hh.2.1, by simp [hh.2.2]⟩)]
    unfold opSet
    rw [if_neg]
    rintro ⟨h1, h2, h3⟩
    exact h ⟨h1, h2, by simp [h3]⟩

theorem opSet_at (ty va : String) (i : Int) (x : Rat) : ∀ (l : List (Int × Rat)) (net : OpNet), (l.map Prod.fst).Nodup → (i, x) ∈ l → l.foldl (opSet ty va) net ty va i = x := by
  intro l
  induction l with
  | nil => intro net _ h; cases h
  | cons e l ih =>
    intro net hn h
    rw [List.map_cons, List.nodup_cons] at hn
    rw [List.foldl_cons]
    rcases List.mem_cons.mp h with rfl | h
    · rw [opSet_other _ _ _ _ _ _ _ (fun hh => hn.1 hh.2.2)]
      unfold opSet
      rw [if_pos ⟨rfl, rfl, rfl⟩]
    · exact ih _ hn.2 h

theorem op_apply_iff (has : String → Int → Bool) (t : Nat) (net net' : OpNet) (p : OpProfile) :
    opApply has t net p = .ok net' ↔ ∃ a v, p.active = some a ∧ opSelect p.frame a t = .ok v ∧ (∀ i ∈ p.indexes, has p.type i = true) ∧ v.length = p.indexes.length ∧
      net' = (p.indexes.zip v).foldl (opSet p.type p.var) net := by
  unfold opApply
  cases ha : p.active with
  | none => simp
  | some a =>
    simp only [Option.some.injEq]
    cases hs : opSelect p.frame a t with
    | error e =>
      constructor
      · intro h; cases h
      · rintro ⟨a', v, rfl, h, -⟩; rw [hs] at h; cases h
    | ok v =>
      show opWrite has p net v = _ ↔ _
      unfold opWrite
      constructor
      · intro h
        split at h
        · rename_i h1
          split at h
          · rename_i h2
            injection h with h
            exact ⟨a, v, rfl, hs, List.all_eq_true.mp h1, h2, h.symm⟩
          · cases h
        · cases h
      · rintro ⟨a', v', rfl, h, h1, h2, rfl⟩
        rw [hs] at h
        injection h with h
        subst h
        rw [if_pos (List.all_eq_true.mpr h1), if_pos h2]

theorem op_step_other (has : String → Int → Bool) (t : Nat) (ty va : String) (i : Int) : ∀ (ps : List OpProfile) (net net' : OpNet), opStep has ps t net = .ok net' →
    (∀ p ∈ ps, ¬ (p.type = ty ∧ p.var = va ∧ i ∈ p.indexes)) → net' ty va i = net ty va i := by
  intro ps
  induction ps with
  | nil => intro net net' h _; cases h; rfl
  | cons p ps ih =>
    intro net net' h hp
    unfold opStep at h
    rw [List.foldlM_cons, except_bind_ok] at h
    obtain ⟨n1, h1, h2⟩ := h
    rw [ih n1 net' h2 (fun q hq => hp q (by simp [hq]))]
    obtain ⟨a, v, -, -, -, h3, rfl⟩ := (op_apply_iff _ _ _ _ _).mp h1
    apply opSet_other
    rintro ⟨e1, e2, e3⟩
    rw [List.map_fst_zip (by omega)] at e3
    exact hp p (by simp) ⟨e1.symm, e2.symm, e3⟩

theorem op_table (book : String → Except PyErr Frame) (d : OpDict) (f : Frame) (act : List String) (h : OpGiven book d f act) : opTable book d = .ok (some f) := by
  unfold opTable
  rcases h.table with ⟨h1, h2⟩ | ⟨h1, h2, s, h3, h4⟩
  · rw [h1, h2]
    show (opFrame f.rows f.columns).map some = _
    unfold opFrame
    rw [if_pos]
    · rfl
    · rw [List.all_eq_true]
      intro r hr
      simpa using h.shape r hr
  · rw [h2, h3]
    rcases h1 with h1 | h1
    · rw [h1]
      simp only [if_pos, h4]
      rfl
    · rw [h1]
      cases d.data <;> simp only [if_pos, h4] <;> rfl

theorem op_active (book : String → Except PyErr Frame) (d : OpDict) (f : Frame) (act : List String) (h : OpGiven book d f act) : opActive d (some f) = .ok (some act) := by
  unfold opActive
  rcases h.active with h1 | ⟨h1, h2, h3⟩
  · rw [h1]
  · rw [h1]
    simp only [if_pos h2, h3]

theorem op_read_iff (book : String → Except PyErr Frame) (n : Nat) (d : OpDict) (p : OpProfile) : opRead book n d = .ok p ↔
    ∃ f t v a g, opTable book d = .ok f ∧ d.type = some t ∧ d.var = some v ∧ opActive d f = .ok a ∧ opAdjust n f = .ok g ∧ p = ⟨g, t, v, d.indexes.getD [], d.allIndexes, a⟩ := by
  have hpop : ∀ (x : Option String) (s : String), opPop x = .ok s ↔ x = some s := by
    intro x s
    unfold opPop
    cases x <;> simp
  unfold opRead
  simp only [except_bind_ok, hpop]
  constructor
  · rintro ⟨f, h1, t, h2, v, h3, a, h4, g, h5, h6⟩
    injection h6 with h6
    exact ⟨f, t, v, a, g, h1, h2, h3, h4, h5, h6.symm⟩
  · rintro ⟨f, t, v, a, g, h1, h2, h3, h4, h5, h6⟩
    exact ⟨f, h1, t, h2, v, h3, a, h4, g, h5, by rw [h6]⟩

theorem op_adjust_entry (n : Nat) (f g : Frame) (hn : 0 < n) (hr : f.Rectangular) (h : adjustProfile n f = .ok g) :
    g.columns = f.columns ∧ g.rows.length = n ∧ g.Rectangular ∧ ∀ t c, t < n → c < f.columns.length → g.entry t c = stepMean f n t c := by
  have hk : ∃ k, 0 < k ∧ f.rows.length = n * k := by
    rcases (C42_success_iff n f).mp ⟨g, h⟩ with h1 | ⟨h1, h2, k, h3⟩
    · exact ⟨1, by omega, by omega⟩
    · refine ⟨k, ?_, h3⟩
      rcases Nat.eq_zero_or_pos k with h0 | h0
      · subst h0; omega
      · exact h0
  obtain ⟨k, hk, hl⟩ := hk
  obtain ⟨g', h1, h2, h3, h4, h5, -⟩ := C42_block_means n k f hn hk hl hr
  rw [h] at h1
  injection h1 with h1
  subst h1
  refine ⟨h2, h3, h4, ?_⟩
  intro t c ht hc
  rw [h5 t c ht hc]
  unfold stepMean
  rw [hl, Nat.mul_div_cancel_left _ hn]

/-! ## C230 -/

/-- in every time step the variable of the element at position `j` of the list gets the mean of the active column at position `j` over the step, unless a later profile names the same
variable of the same element -/
theorem C230_values_partial (book : String → Except PyErr Frame) (has : String → Int → Bool) (n : Nat) (ds : List OpDict) (ps : List OpProfile) (hl : opLoad book n ds = .ok ps)
    (t : Nat) (ht : t < n) (net net' : OpNet) (hs : opStep has ps t net = .ok net')
    (k : Nat) (d : OpDict) (hd : ds[k]? = some d) (f : Frame) (act : List String) (hg : OpGiven book d f act) (idx : List Int) (hi : d.indexes = some idx) (hnd : idx.Nodup)
    (ty va : String) (hty : d.type = some ty) (hva : d.var = some va)
    (j : Nat) (i : Int) (c : Nat) (name : String) (hij : idx[j]? = some i) (hact : act[j]? = some name) (hcol : f.columns[c]? = some name)
    (hlast : ∀ (k' : Nat) (d' : OpDict), k < k' → ds[k']? = some d' → ¬ OpNames d' ty va i) :
    net' ty va i = stepMean f n t c := by
  unfold opLoad at hl
  rw [mapM_ok_iff, List.forall₂_iff_get] at hl
  obtain ⟨hlen, hall⟩ := hl
  have hk : k < ds.length := by
    rw [List.getElem?_eq_some_iff] at hd
    exact hd.1
  have hk' : k < ps.length := by omega
  have hread := hall k hk hk'
  have hdk : ds.get ⟨k, hk⟩ = d := by
    rw [List.getElem?_eq_getElem hk] at hd
    injection hd
  rw [hdk] at hread
  obtain ⟨f', t', v', a', g, h1, h2, h3, h4, h5, h6⟩ := (op_read_iff _ _ _ _).mp hread
  rw [op_table book d f act hg] at h1
  injection h1 with h1
  subst h1
  rw [op_active book d f act hg] at h4
  injection h4 with h4
  subst h4
  rw [hty] at h2
  injection h2 with h2
  rw [hva] at h3
  injection h3 with h3
  subst h2 h3
  obtain ⟨e1, e2, e3, e4⟩ := op_adjust_entry n f g (by omega) hg.shape h5
  have hsplit : ps = ps.take k ++ (ps.get ⟨k, hk'⟩ :: ps.drop (k + 1)) := by
    simp
  have hs0 := hs
  unfold opStep at hs
  rw [hsplit, List.foldlM_append, except_bind_ok] at hs
  obtain ⟨n1, -, hs⟩ := hs
  rw [List.foldlM_cons, except_bind_ok] at hs
  obtain ⟨n2, hs1, hs2⟩ := hs
  rw [op_step_other has t ty va i _ n2 net' hs2]
  · obtain ⟨a, v, ha, hv, -, hlv, hn2⟩ := (op_apply_iff _ _ _ _ _).mp hs1
    rw [h6] at ha hv hlv hn2
    dsimp only at ha hv hlv hn2
    injection ha with ha
    subst ha
    obtain ⟨-, -, hv⟩ := (op_select_iff g e3 (by rw [e1]; exact hg.names) act t v).mp hv
    rw [hn2]
    rw [hi, Option.getD_some] at hlv ⊢
    rw [opSet_at ty va i (g.entry t (g.columns.idxOf name))]
    · rw [e1]
      have hc : c < f.columns.length := by
        rw [List.getElem?_eq_some_iff] at hcol
        exact hcol.1
      have : f.columns.idxOf name = c := by
        rw [List.getElem?_eq_getElem hc] at hcol
        injection hcol with hcol
        rw [← hcol]
        exact hg.names.idxOf_getElem c hc
      rw [this]
      exact e4 t c ht hc
    · rw [List.map_fst_zip (by omega)]
      exact hnd
    · rw [List.mem_iff_getElem?]
      refine ⟨j, ?_⟩
      rw [List.getElem?_zip_eq_some]
      refine ⟨hij, ?_⟩
      rw [hv, List.getElem?_map, hact]
      rfl
  · intro q hq
    rw [List.mem_iff_getElem] at hq
    obtain ⟨m, hm, hq⟩ := hq
    rw [List.length_drop] at hm
    rw [List.getElem_drop] at hq
    have hm1 : k + 1 + m < ds.length := by omega
    have hr := hall (k + 1 + m) hm1 (by omega)
    obtain ⟨f', t', v', a', g', -, q2, q3, -, -, q6⟩ := (op_read_iff _ _ _ _).mp hr
    have : ps.get ⟨k + 1 + m, by omega⟩ = q := hq
    rw [this] at q6
    rintro ⟨w1, w2, w3⟩
    rw [q6] at w1 w2 w3
    dsimp only at w1 w2 w3
    subst w1 w2
    exact hlast (k + 1 + m) _ (by omega) (List.getElem?_eq_getElem hm1) ⟨q2, q3, w3⟩

/-- nothing else is changed -/
theorem C230_others_partial (book : String → Except PyErr Frame) (has : String → Int → Bool) (n : Nat) (ds : List OpDict) (ps : List OpProfile) (hl : opLoad book n ds = .ok ps)
    (t : Nat) (net net' : OpNet) (hs : opStep has ps t net = .ok net') (ty va : String) (i : Int) (hno : ∀ d ∈ ds, ¬ OpNames d ty va i) : net' ty va i = net ty va i := by
  apply op_step_other has t ty va i ps net net' hs
  intro p hp
  unfold opLoad at hl
  rw [mapM_ok_iff, List.forall₂_iff_get] at hl
  obtain ⟨hlen, hall⟩ := hl
  rw [List.mem_iff_getElem] at hp
  obtain ⟨m, hm, hp⟩ := hp
  have hr := hall m (by omega) hm
  have hp' : ps.get ⟨m, hm⟩ = p := hp
  rw [hp'] at hr
  obtain ⟨f', t', v', a', g', -, q2, q3, -, -, q6⟩ := (op_read_iff _ _ _ _).mp hr
  rintro ⟨w1, w2, w3⟩
  rw [q6] at w1 w2 w3
  dsimp only at w1 w2 w3
  subst w1 w2
  exact hno _ (List.get_mem ds ⟨m, by omega⟩) ⟨q2, q3, w3⟩

/-- profiles whose table covers the time steps, whose columns exist, with as many active columns as elements, all of which exist, can be read and drive every time step -/
theorem C230_complete_partial (book : String → Except PyErr Frame) (has : String → Int → Bool) (n : Nat) (ds : List OpDict)
    (hd : ∀ d ∈ ds, ∃ f act ty, OpGiven book d f act ∧ d.type = some ty ∧ (∃ va, d.var = some va) ∧ (∃ k, 0 < k ∧ f.rows.length = n * k) ∧ (∀ x ∈ act, x ∈ f.columns) ∧
      act.length = (d.indexes.getD []).length ∧ ∀ i ∈ d.indexes.getD [], has ty i = true) :
    ∃ ps, opLoad book n ds = .ok ps ∧ ∀ t < n, ∀ net, ∃ net', opStep has ps t net = .ok net' := by
  unfold opLoad
  induction ds with
  | nil => exact ⟨[], rfl, fun t _ net => ⟨net, rfl⟩⟩
  | cons d ds ih =>
    obtain ⟨ps, h1, h2⟩ := ih (fun d' h' => hd d' (by simp [h']))
    obtain ⟨f, act, ty, hg, hty, ⟨va, hva⟩, ⟨k, hk, hlen⟩, hsub, hnum, hhas⟩ := hd d (by simp)
    have hadj : ∃ g, opAdjust n (some f) = .ok g := by
      unfold opAdjust
      apply (C42_success_iff n f).mpr
      rcases Nat.eq_zero_or_pos n with h0 | h0
      · subst h0; left; omega
      · rcases Nat.lt_or_ge 1 k with h3 | h3
        · right
          exact ⟨h0, by rw [hlen]; nlinarith, k, hlen⟩
        · left
          have : k = 1 := by omega
          rw [hlen, this, Nat.mul_one]
    obtain ⟨g, hadj⟩ := hadj
    have hp : opRead book n d = .ok ⟨g, ty, va, d.indexes.getD [], d.allIndexes, some act⟩ :=
      (op_read_iff _ _ _ _).mpr ⟨some f, ty, va, some act, g, op_table book d f act hg, hty, hva, op_active book d f act hg, hadj, rfl⟩
    refine ⟨⟨g, ty, va, d.indexes.getD [], d.allIndexes, some act⟩ :: ps, ?_, ?_⟩
    · rw [mapM_ok_iff] at h1 ⊢
      exact List.Forall₂.cons hp h1
    · intro t ht net
      obtain ⟨e1, e2, e3, -⟩ := op_adjust_entry n f g (by omega) hg.shape hadj
      have hone : ∃ n1, opApply has t net ⟨g, ty, va, d.indexes.getD [], d.allIndexes, some act⟩ = .ok n1 := by
        refine ⟨_, (op_apply_iff _ _ _ _ _).mpr ⟨act, _, rfl, (op_select_iff g e3 (by rw [e1]; exact hg.names) act t _).mpr ⟨by omega, by rw [e1]; exact hsub, rfl⟩, hhas, ?_, rfl⟩⟩
        rw [List.length_map]
        exact hnum
      obtain ⟨n1, hn1⟩ := hone
      obtain ⟨n2, hn2⟩ := h2 t ht n1
      refine ⟨n2, ?_⟩
      unfold opStep
      rw [List.foldlM_cons, except_bind_ok]
      exact ⟨n1, hn1, hn2⟩

/-- violated: a profile for all elements (`all_indexes`, without a list of elements) drives none: the entry is read and used nowhere -/
theorem C230_all_violated (book : String → Except PyErr Frame) (has : String → Int → Bool) (n : Nat) (d : OpDict) (_ha : d.allIndexes = true) (hi : d.indexes = none)
    (p : OpProfile) (hp : opRead book n d = .ok p) (t : Nat) (net net' : OpNet) (hs : opStep has [p] t net = .ok net') : net' = net := by
  funext ty va i
  apply op_step_other has t ty va i [p] net net' hs
  obtain ⟨f', t', v', a', g', -, q2, q3, -, -, q6⟩ := (op_read_iff _ _ _ _).mp hp
  intro q hq
  rw [List.mem_singleton] at hq
  subst hq
  rintro ⟨-, -, w3⟩
  rw [q6, hi] at w3
  cases w3

/-- violated: a workbook in another format than `.xlsx` is not read -/
theorem C230_format_violated (book : String → Except PyErr Frame) (n : Nat) (d : OpDict) (hd : d.data = none) (ext s : String) (hp : d.path = some ext) (hs : d.sheet = some s) (he : ext ≠ ".xlsx")
    (p : OpProfile) : opRead book n d ≠ .ok p := by
  intro h
  obtain ⟨f, t, v, a, g, h1, -, -, -, h5, -⟩ := (op_read_iff _ _ _ _).mp h
  unfold opTable at h1
  rw [hd, hp, hs] at h1
  simp only [if_neg he] at h1
  injection h1 with h1
  subst h1
  cases h5

/-- two profiles: loads 3 and 7 from a table of four rows in two time steps, generator 0 from a workbook -/
def opDict0 : OpDict := ⟨some [[1, 10, 5], [3, 20, 5], [5, 30, 5], [7, 50, 5]], some ["a", "b", "c"], none, none, some "load", some "p_mw", some [3, 7], false, some ["b", "a"], false⟩
def opDict1 : OpDict := ⟨none, none, some ".xlsx", some "gen", some "gen", some "p_mw", some [0], false, none, true⟩
def opBook0 : String → Except PyErr Frame := fun s => if s = "gen" then .ok ⟨["g"], [[100], [200]]⟩ else .error .value
def opNet0 : OpNet := fun _ _ _ => -1

theorem C230_witness : ∃ ps net', opLoad opBook0 2 [opDict0, opDict1] = .ok ps ∧ opStep (fun _ _ => true) ps 1 opNet0 = .ok net' ∧
    OpGiven opBook0 opDict0 ⟨["a", "b", "c"], [[1, 10, 5], [3, 20, 5], [5, 30, 5], [7, 50, 5]]⟩ ["b", "a"] ∧ OpGiven opBook0 opDict1 ⟨["g"], [[100], [200]]⟩ ["g"] ∧
    net' "load" "p_mw" 3 = 40 ∧ net' "load" "p_mw" 7 = 6 ∧ net' "gen" "p_mw" 0 = 200 ∧ net' "load" "p_mw" 5 = -1 := by
  refine ⟨_, _, rfl, rfl, ⟨Or.inl ⟨rfl, rfl⟩, by intro r hr; revert r; decide, by decide, Or.inl rfl⟩,
    ⟨Or.inr ⟨Or.inl rfl, rfl, "gen", rfl, rfl⟩, by intro r hr; revert r; decide, by decide, Or.inr ⟨rfl, rfl, rfl⟩⟩, ?_⟩
  decide +kernel

end Pyensys
