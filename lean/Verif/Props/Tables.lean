import Verif.Lemmas.Tables
import Verif.Props.AttestOptions

/-!
# C177-C178: the tables of the outputs

C177: every value of an output is in its table, in the row of its time and place and in the column of its element (Excel sheets of networks, HDF5 tables of trees); what is missing: HDF5 tables of networks are
empty, nothing at all is written without a position, and the sheet of a tree cannot be written.
C178: saving ends and the files can be closed; what is missing: a value without identifier, files without HDF5.
-/

namespace Pyensys

/-! ## specification -/

/-- the characteristics that say to which row a value belongs: position and hour for a network, all but name and reference for a tree -/
def tbRowKey (p : OtProblem) (k : Tok) : Bool :=
  match p with
  | .opf => decide (k = "pt".toList ∨ k = "hour".toList)
  | .tree => decide (k ≠ "name".toList ∧ k ≠ "reference".toList)

/-- the characteristic that says to which column a value belongs -/
def tbColKey (p : OtProblem) : Tok :=
  match p with
  | .opf => "ID".toList
  | .tree => "reference".toList

/-- the text of a characteristic: its parts with a bar (Excel) or an underscore (HDF5) between them -/
def tbText (d : OtDevice) (c : OtCha) : Tok :=
  List.intercalate (match d with
    | .excel => "|".toList
    | .h5 => "_".toList) (c.first :: c.more)

/-- what the row of a value says -/
def tbLabel (d : OtDevice) (p : OtProblem) (v : OtVal) : List (Tok × Tok) := (v.cha.filter (fun c => tbRowKey p c.key)).map (fun c => (c.key, tbText d c))

/-- a regular value: names of its characteristics of time and place those in `T`, each once, and one identifier -/
structure TbRegular (p : OtProblem) (T : List Tok) (v : OtVal) (id : Tok) : Prop where
  times : ((v.cha.filter (fun c => tbRowKey p c.key)).map (fun c => c.key)).Perm T
  nodup : T.Nodup
  some : T ≠ []
  ident : (v.cha.filter (fun c => decide (c.key = tbColKey p))).map (fun c => c.first) = [id]
  apart : id ∉ T

/-- the value has the name -/
def TbNamed (n : Tok) (v : OtVal) : Prop := ∃ c ∈ v.cha, c.key = "name".toList ∧ c.first = n

/-- the value belongs to the table with this name, of this position for a network -/
def TbMember (p : OtProblem) (n : Tok) (pt : List Tok) (v : OtVal) : Prop :=
  TbNamed n v ∧ (p = .opf → ∀ c ∈ v.cha, c.key = "pt".toList → c.first :: c.more = pt)

/-- the row carries the label -/
def TbLabelled (r : OtRow) (t : List (Tok × Tok)) : Prop := ∀ k w, (k, w) ∈ t → r.lookup k = some (.text w)

/-- the table shows the values of the output: each in the row with its label and in the column of its identifier, one row for each label, nothing else, in the order of the values -/
structure TbShown (d : OtDevice) (p : OtProblem) (n : Tok) (pt : List Tok) (ident : OtVal → Tok) (vals : List OtVal) (rows : List OtRow) : Prop where
  placed : ∀ v ∈ vals, TbMember p n pt v → ∃ r ∈ rows, TbLabelled r (tbLabel d p v) ∧ r.lookup (ident v) = some (.num v.val)
  once : ∀ v ∈ vals, TbMember p n pt v → ∀ (i j : Nat) (r r' : OtRow), rows[i]? = some r → rows[j]? = some r' → TbLabelled r (tbLabel d p v) → TbLabelled r' (tbLabel d p v) → i = j
  only : ∀ r ∈ rows, ∀ k x, r.lookup k = some (.num x) → ∃ v ∈ vals, TbMember p n pt v ∧ TbLabelled r (tbLabel d p v) ∧ ident v = k ∧ v.val = x
  order : ∃ L : List OtVal, L.Sublist vals ∧ (∀ v ∈ L, TbMember p n pt v) ∧ List.Forall₂ (fun r v => TbLabelled r (tbLabel d p v)) rows L

/-! ## the model and the specification -/

theorem tbRowKey_eq (p : OtProblem) (k : Tok) : otIsTime p k = tbRowKey p k := by
  cases p
  · show (k == otPt || k == otHour) = decide _
    rw [Bool.eq_iff_iff, Bool.or_eq_true, beq_iff_eq, beq_iff_eq, decide_eq_true_eq]
    rfl
  · show (!(k == otName) && !(k == "reference".toList)) = decide _
    rw [Bool.eq_iff_iff, Bool.and_eq_true, Bool.not_eq_true', Bool.not_eq_true', beq_eq_false_iff_ne, beq_eq_false_iff_ne, decide_eq_true_eq]
    rfl

theorem tbColKey_eq (p : OtProblem) : otIdKey p = tbColKey p := by cases p <;> rfl

theorem tbText_eq (d : OtDevice) (c : OtCha) : c.text d = tbText d c := by
  have h : ∀ (s : Tok) (l : List Tok) (a : Tok), l.foldl (fun w x => w ++ s ++ x) a = List.intercalate s (a :: l) := by
    intro s l
    induction l with
    | nil => intro a; simp [List.intercalate]
    | cons b l ih =>
      intro a
      rw [List.foldl_cons, ih]
      cases l with
      | nil => simp [List.intercalate, List.intersperse]
      | cons b' l => simp [List.intercalate, List.intersperse]
  unfold OtCha.text tbText
  rw [h]
  cases d <;> rfl

theorem tbLabel_eq (d : OtDevice) (p : OtProblem) (v : OtVal) : otLabel d p v = tbLabel d p v := by
  unfold otLabel tbLabel
  have h1 : (fun c : OtCha => otIsTime p c.key) = (fun c => tbRowKey p c.key) := by funext c; exact tbRowKey_eq p c.key
  have h2 : (fun c : OtCha => (c.key, c.text d)) = (fun c => (c.key, tbText d c)) := by funext c; rw [tbText_eq]
  rw [h1, h2]

theorem TbRegular.fit {p T v id} (h : TbRegular p T v id) : OtFit p T v id := by
  have h1 : (fun c : OtCha => otIsTime p c.key) = (fun c => tbRowKey p c.key) := by funext c; exact tbRowKey_eq p c.key
  have h2 : (fun c : OtCha => c.key == otIdKey p) = (fun c => decide (c.key = tbColKey p)) := by
    funext c
    rw [tbColKey_eq, Bool.eq_iff_iff, beq_iff_eq, decide_eq_true_eq]
  refine ⟨?_, h.nodup, h.some, ?_, h.apart⟩
  · rw [h1]; exact h.times
  · rw [h2]; exact h.ident

theorem otNamed_iff (n : Tok) (v : OtVal) : otNamed n v = true ↔ TbNamed n v := by
  unfold otNamed TbNamed
  rw [List.any_eq_true]
  simp only [Bool.and_eq_true, beq_iff_eq]
  rfl

theorem otGroup_iff (p : OtProblem) (n : Tok) (pt : List Tok) (v : OtVal) (nm : Tok) (hv : (v.cha.filter (fun c => decide (c.key = "name".toList))).map (fun c => c.first) = [nm]) :
    otGroup p n pt v = true ↔ TbMember p n pt v := by
  have hnamed : ∀ c ∈ v.cha, c.key = "name".toList → c.first = nm := by
    intro c hc hk
    have : c.first ∈ (v.cha.filter (fun c => decide (c.key = "name".toList))).map (fun c => c.first) :=
      List.mem_map.2 ⟨c, List.mem_filter.2 ⟨hc, by simpa using hk⟩, rfl⟩
    rw [hv] at this
    simpa using this
  have hex : ∃ c ∈ v.cha, c.key = "name".toList ∧ c.first = nm := by
    obtain ⟨c, hf, hx⟩ := List.map_eq_singleton_iff.1 hv
    have hm : c ∈ v.cha.filter (fun c => decide (c.key = "name".toList)) := by rw [hf]; simp
    rw [List.mem_filter] at hm
    exact ⟨c, hm.1, by simpa using hm.2, hx⟩
  cases p
  · show v.cha.all (otFits n pt) = true ↔ _
    rw [List.all_eq_true]
    have hfit : ∀ c, otFits n pt c = true ↔ (c.key = "name".toList → c.first = n) ∧ (c.key = "pt".toList → c.first :: c.more = pt) := by
      intro c
      unfold otFits
      rw [Bool.and_eq_true, Bool.or_eq_true, Bool.or_eq_true, Bool.not_eq_true', Bool.not_eq_true', beq_eq_false_iff_ne, beq_eq_false_iff_ne, beq_iff_eq, beq_iff_eq]
      rw [← imp_iff_not_or, ← imp_iff_not_or]
      rfl
    constructor
    · intro h
      refine ⟨?_, ?_⟩
      · obtain ⟨c, hc, hk, _⟩ := hex
        exact ⟨c, hc, hk, ((hfit c).1 (h c hc)).1 hk⟩
      · intro _ c hc hk
        exact ((hfit c).1 (h c hc)).2 hk
    · rintro ⟨⟨c0, hc0, hk0, hn0⟩, hpt⟩ c hc
      refine (hfit c).2 ⟨?_, hpt rfl c hc⟩
      intro hk
      rw [hnamed c hc hk, ← hnamed c0 hc0 hk0, hn0]
  · show otNamed n v = true ↔ _
    rw [otNamed_iff]
    constructor
    · intro h; exact ⟨h, fun h => absurd h (by decide)⟩
    · exact fun h => h.1

theorem otInsert_fold (l : List Tok) : ∀ cols k, k ∈ l.foldl otInsert cols ↔ k ∈ cols ∨ k ∈ l := by
  induction l with
  | nil => simp
  | cons a l ih =>
    intro cols k
    rw [List.foldl_cons, ih]
    have : k ∈ otInsert cols a ↔ k ∈ cols ∨ k = a := by
      unfold otInsert
      by_cases h : cols.contains a = true
      · rw [if_pos h]
        have : a ∈ cols := by simpa using h
        constructor
        · exact Or.inl
        · rintro (h | rfl) <;> assumption
      · rw [if_neg h]; simp
    rw [this]
    simp [or_assoc]

theorem otIdCol_mono (p : OtProblem) (vs : List OtVal) : ∀ cols k, k ∈ cols → k ∈ vs.foldl (otIdCol p) cols := by
  induction vs with
  | nil => intro cols k h; exact h
  | cons v vs ih =>
    intro cols k h
    rw [List.foldl_cons]
    apply ih
    unfold otIdCol
    split
    · exact List.mem_append_left _ h
    · exact h

theorem otIdCol_self (p : OtProblem) (cols : List Tok) (v : OtVal) (T id) (hf : OtFit p T v id) : id ∈ otIdCol p cols v := by
  obtain ⟨c, hfl, hx⟩ := List.map_eq_singleton_iff.1 hf.ident
  have hm : c ∈ v.cha.filter (fun c => c.key == otIdKey p) := by rw [hfl]; simp
  have hm2 := List.mem_filter.1 hm
  have huniq : ∀ c' ∈ v.cha, (c'.key == otIdKey p) = true → c' = c := by
    intro c' h1 h2
    have : c' ∈ v.cha.filter (fun c => c.key == otIdKey p) := List.mem_filter.2 ⟨h1, h2⟩
    rw [hfl] at this
    simpa using this
  unfold otIdCol
  cases hfd : v.cha.find? (fun c => c.key == otIdKey p && !cols.contains c.first) with
  | none =>
    have := List.find?_eq_none.1 hfd c hm2.1
    simp only [hm2.2, Bool.true_and, Bool.not_eq_true'] at this
    have : cols.contains c.first = true := by simpa using this
    rw [← hx]
    simpa using this
  | some c' =>
    have h1 := List.mem_of_find?_eq_some hfd
    have h2 := List.find?_some hfd
    simp only [Bool.and_eq_true] at h2
    rw [huniq c' h1 h2.1]
    show id ∈ cols ++ [c.first]
    rw [hx]
    simp

theorem otIdCol_fold (p : OtProblem) (vs : List OtVal) (T) (ident : OtVal → Tok) (v : OtVal) (hf : OtFit p T v (ident v)) : ∀ cols, v ∈ vs → ident v ∈ vs.foldl (otIdCol p) cols := by
  induction vs with
  | nil => intro cols h; exact absurd h (by simp)
  | cons w vs ih =>
    intro cols hv
    rw [List.foldl_cons]
    rcases List.mem_cons.1 hv with rfl | hv
    · exact otIdCol_mono p vs _ _ (otIdCol_self p cols v T (ident v) hf)
    · exact ih _ hv

/-- the columns of a regular table hold every value of its name -/
theorem otColumns_needs (p : OtProblem) (n : Tok) (vals : List OtVal) (T) (ident : OtVal → Tok) (hreg : ∀ v ∈ vals, TbNamed n v → OtFit p T v (ident v)) (v : OtVal) (hv : v ∈ vals)
    (hn : TbNamed n v) : otNeeds p (otColumns p n vals) v := by
  have hf := hreg v hv hn
  have hvm : v ∈ vals.filter (otNamed n) := List.mem_filter.2 ⟨hv, (otNamed_iff n v).2 hn⟩
  have hT : ∀ k ∈ T, k ∈ otTimeCols p n vals := by
    intro k hk
    have key : ∀ w ∈ vals.filter (otNamed n), k ∈ otTimeKeys p w := by
      intro w hw
      rw [List.mem_filter] at hw
      exact ((hreg w hw.1 ((otNamed_iff n w).1 hw.2)).times.mem_iff).2 hk
    unfold otTimeCols
    cases p
    · show k ∈ ((((vals.filter (otNamed n)).take 1).flatMap (otTimeKeys .opf)).foldl otInsert [])
      rw [otInsert_fold]
      right
      cases hfl : vals.filter (otNamed n) with
      | nil => rw [hfl] at hvm; exact absurd hvm (by simp)
      | cons w ws =>
        simp only [List.take_succ_cons, List.take_zero, List.flatMap_cons, List.flatMap_nil, List.append_nil]
        exact key w (by rw [hfl]; simp)
    · show k ∈ (((vals.filter (otNamed n)).flatMap (otTimeKeys .tree)).foldl otInsert [])
      rw [otInsert_fold]
      right
      exact List.mem_flatMap.2 ⟨v, hvm, key v hvm⟩
  constructor
  · intro c hc ht
    have hcT : c.key ∈ T := by
      apply hf.times.mem_iff.1
      exact List.mem_map.2 ⟨c, List.mem_filter.2 ⟨hc, ht⟩, rfl⟩
    exact otIdCol_mono p _ _ _ (hT _ hcT)
  · intro c hc hk
    have : c.first = ident v := by
      have hm : c.first ∈ (v.cha.filter (fun c => c.key == otIdKey p)).map (fun c => c.first) :=
        List.mem_map.2 ⟨c, List.mem_filter.2 ⟨hc, by simpa using hk⟩, rfl⟩
      rw [hf.ident] at hm
      simpa using hm
    rw [this]
    exact otIdCol_fold p _ T ident v hf _ hvm

/-! ## a row -/

theorem otMore_lookup (ident : OtVal → Tok) (l : List OtVal) : ∀ (row : OtRow) (k : Tok),
    ((∀ v ∈ l, ident v ≠ k) ∧ (otMore ident row l).lookup k = row.lookup k) ∨ (∃ v ∈ l, ident v = k ∧ (otMore ident row l).lookup k = some (.num v.val)) := by
  induction l with
  | nil => intro row k; left; exact ⟨by simp, rfl⟩
  | cons v l ih =>
    intro row k
    unfold otMore at ih ⊢
    rw [List.foldl_cons]
    rcases ih (rpSet row (ident v) (.num v.val)) k with ⟨h1, h2⟩ | ⟨w, hw, h1, h2⟩
    · by_cases hk : ident v = k
      · right
        refine ⟨v, by simp, hk, ?_⟩
        rw [h2, otSet_lookup, if_pos hk.symm]
      · left
        refine ⟨?_, ?_⟩
        · intro w hw
          rcases List.mem_cons.1 hw with rfl | hw
          · exact hk
          · exact h1 w hw
        · rw [h2, otSet_lookup, if_neg (fun e => hk e.symm)]
    · right; exact ⟨w, List.mem_cons_of_mem _ hw, h1, h2⟩

theorem otCells_lookup (d p) (v : OtVal) (T id) (h : OtFit p T v id) (k : Tok) (c : OtCell) :
    (otCells d p v v.cha).lookup k = some c ↔ (∃ w, (k, w) ∈ otLabel d p v ∧ c = .text w) ∨ (k = id ∧ c = .num v.val) := by
  rw [lookup_mem_iff _ (h.cells_nodup d), (h.cells_perm d).mem_iff, List.mem_append, List.mem_map]
  constructor
  · rintro (⟨e, he, hx⟩ | hx)
    · left
      simp only [Prod.mk.injEq] at hx
      exact ⟨e.2, by rw [← hx.1]; exact he, hx.2.symm⟩
    · right
      simpa using hx
  · rintro (⟨w, hw, rfl⟩ | ⟨rfl, rfl⟩)
    · left; exact ⟨(k, w), hw, rfl⟩
    · right; simp

theorem otSame_mem {a b : List (Tok × Tok)} (ha : (a.map Prod.fst).Nodup) (hb : (b.map Prod.fst).Nodup) : otSame a b = true ↔ ∀ k w, (k, w) ∈ a ↔ (k, w) ∈ b := by
  rw [otSame_iff]
  constructor
  · intro h k w
    rw [← lookup_mem_iff a ha, ← lookup_mem_iff b hb, h k]
  · intro h k
    rcases hx : a.lookup k with _ | w
    · rcases hy : b.lookup k with _ | w
      · rfl
      · have := (h k w).2 ((lookup_mem_iff b hb k w).1 hy)
        rw [← lookup_mem_iff a ha, hx] at this
        exact absurd this (by simp)
    · exact ((lookup_mem_iff b hb k w).2 ((h k w).1 ((lookup_mem_iff a ha k w).1 hx))).symm

/-- the loop writes a right table -/
theorem otLoop_shown (d p) (n : Tok) (pt : List Tok) (T : List Tok) (ident : OtVal → Tok) (vs : List (OtVal × Bool)) (fuel : Nat)
    (hname : ∀ e ∈ vs, ∃ nm, (e.1.cha.filter (fun c => decide (c.key = "name".toList))).map (fun c => c.first) = [nm])
    (hreg : ∀ e ∈ vs, TbNamed n e.1 → TbRegular p T e.1 (ident e.1))
    (hopen : ∀ e ∈ vs, TbMember p n pt e.1 → e.2 = false)
    (hkey : ∀ e ∈ vs, ∀ f ∈ vs, TbMember p n pt e.1 → TbMember p n pt f.1 → (∀ k w, (k, w) ∈ tbLabel d p e.1 ↔ (k, w) ∈ tbLabel d p f.1) → ident e.1 = ident f.1 → e.1.val = f.1.val)
    (hfuel : vs.length < fuel) :
    ∃ rows, otLoop d p n pt (otColumns p n (vs.map Prod.fst)) fuel vs = .ok (some (rows, vs.map (fun e => (e.1, e.2 || otGroup p n pt e.1)))) ∧
      TbShown d p n pt ident (vs.map Prod.fst) rows := by
  have hgroup : ∀ e ∈ vs, otGroup p n pt e.1 = true ↔ TbMember p n pt e.1 := by
    intro e he
    obtain ⟨nm, h⟩ := hname e he
    exact otGroup_iff p n pt e.1 nm h
  have hmem : ∀ v, v ∈ otOpen p n pt vs ↔ v ∈ vs.map Prod.fst ∧ TbMember p n pt v := by
    intro v
    unfold otOpen
    constructor
    · intro hv
      obtain ⟨e, he, rfl⟩ := List.mem_map.1 hv
      rw [List.mem_filter] at he
      simp only [Bool.and_eq_true] at he
      exact ⟨List.mem_map.2 ⟨e, he.1, rfl⟩, (hgroup e he.1).1 he.2.2⟩
    · rintro ⟨hv, hm⟩
      obtain ⟨e, he, rfl⟩ := List.mem_map.1 hv
      refine List.mem_map.2 ⟨e, List.mem_filter.2 ⟨he, ?_⟩, rfl⟩
      rw [hopen e he hm, (hgroup e he).2 hm]
      rfl
  have hfit : ∀ v ∈ otOpen p n pt vs, OtFit p T v (ident v) := by
    intro v hv
    obtain ⟨h1, h2⟩ := (hmem v).1 hv
    obtain ⟨e, he, rfl⟩ := List.mem_map.1 h1
    exact (hreg e he h2.1).fit
  have hready : OtReady p n pt (otColumns p n (vs.map Prod.fst)) T ident vs := by
    intro v hv
    obtain ⟨h1, h2⟩ := (hmem v).1 hv
    refine ⟨hfit v hv, otColumns_needs p n _ T ident ?_ v h1 h2.1⟩
    intro w hw hn
    obtain ⟨e, he, rfl⟩ := List.mem_map.1 hw
    exact (hreg e he hn).fit
  have hlen : (otOpen p n pt vs).length < fuel := by
    unfold otOpen
    rw [List.length_map]
    exact lt_of_le_of_lt (List.length_filter_le _ _) hfuel
  obtain ⟨L, vs', hl, hsub, hpw, hcov, rfl⟩ := otLoop_spec d p n pt (otColumns p n (vs.map Prod.fst)) T ident fuel vs hready hlen
  refine ⟨_, hl, ?_⟩
  -- the row of a leader
  have hrow : ∀ l ∈ otOpen p n pt vs, ∃ a rest, (otOpen p n pt vs).filter (fun w => otSame (otLabel d p w) (otLabel d p l)) = a :: rest ∧
      otRowOf d p ident (otOpen p n pt vs) l = otMore ident (otCells d p a a.cha) rest ∧ a ∈ otOpen p n pt vs ∧ otSame (otLabel d p a) (otLabel d p l) = true ∧
      (∀ w, w ∈ a :: rest ↔ w ∈ otOpen p n pt vs ∧ otSame (otLabel d p w) (otLabel d p l) = true) := by
    intro l hl
    have hin : l ∈ (otOpen p n pt vs).filter (fun w => otSame (otLabel d p w) (otLabel d p l)) := List.mem_filter.2 ⟨hl, otSame_refl _⟩
    cases hfl : (otOpen p n pt vs).filter (fun w => otSame (otLabel d p w) (otLabel d p l)) with
    | nil => rw [hfl] at hin; exact absurd hin (by simp)
    | cons a rest =>
      have hall : ∀ w, w ∈ a :: rest ↔ w ∈ otOpen p n pt vs ∧ otSame (otLabel d p w) (otLabel d p l) = true := by
        intro w; rw [← hfl, List.mem_filter]
      obtain ⟨h1, h2⟩ := (hall a).1 (by simp)
      exact ⟨a, rest, rfl, by unfold otRowOf; rw [hfl], h1, h2, hall⟩
  have hlabel : ∀ l ∈ otOpen p n pt vs, ∀ k w, (otRowOf d p ident (otOpen p n pt vs) l).lookup k = some (.text w) ↔ (k, w) ∈ otLabel d p l := by
    intro l hl k w
    obtain ⟨a, rest, _, hr, ha, hsame, hall⟩ := hrow l hl
    have hsm := (otSame_mem ((hfit a ha).label_nodup d) ((hfit l hl).label_nodup d)).1 hsame
    rw [hr, ← hsm k w]
    rcases otMore_lookup ident rest (otCells d p a a.cha) k with ⟨h1, h2⟩ | ⟨v, hv, h1, h2⟩
    · rw [h2, otCells_lookup d p a T (ident a) (hfit a ha)]
      constructor
      · rintro (⟨w', h, he⟩ | ⟨_, he⟩)
        · injection he with he; rw [he]; exact h
        · exact absurd he (by simp)
      · intro h; left; exact ⟨w, h, rfl⟩
    · rw [h2]
      constructor
      · intro h; exact absurd h (by simp)
      · intro h
        have hkT : k ∈ T := ((hfit a ha).keys d).mem_iff.1 (List.mem_map.2 ⟨(k, w), h, rfl⟩)
        have hv' := ((hall v).1 (List.mem_cons_of_mem _ hv)).1
        rw [← h1] at hkT
        exact absurd hkT (hfit v hv').apart
  have hlab : ∀ l ∈ otOpen p n pt vs, ∀ v ∈ otOpen p n pt vs, TbLabelled (otRowOf d p ident (otOpen p n pt vs) l) (tbLabel d p v) ↔ otSame (otLabel d p v) (otLabel d p l) = true := by
    intro l hl v hv
    rw [← tbLabel_eq]
    constructor
    · intro h
      have hsubset : ∀ k w, (k, w) ∈ otLabel d p v → (k, w) ∈ otLabel d p l := fun k w hkw => (hlabel l hl k w).1 (h k w hkw)
      rw [otSame_mem ((hfit v hv).label_nodup d) ((hfit l hl).label_nodup d)]
      intro k w
      refine ⟨hsubset k w, ?_⟩
      intro hkw
      have hkT : k ∈ T := ((hfit l hl).keys d).mem_iff.1 (List.mem_map.2 ⟨(k, w), hkw, rfl⟩)
      have hkv := ((hfit v hv).keys d).mem_iff.2 hkT
      obtain ⟨e, he, hek⟩ := List.mem_map.1 hkv
      obtain ⟨k', w'⟩ := e
      have hek : k' = k := hek
      subst hek
      have h3 := hsubset k' w' he
      have h4 := (lookup_mem_iff _ ((hfit l hl).label_nodup d) k' w').2 h3
      have h5 := (lookup_mem_iff _ ((hfit l hl).label_nodup d) k' w).2 hkw
      rw [h4] at h5
      injection h5 with h5
      rw [← h5]; exact he
    · intro h k w hkw
      rw [hlabel l hl]
      exact ((otSame_mem ((hfit v hv).label_nodup d) ((hfit l hl).label_nodup d)).1 h k w).1 hkw
  refine ⟨?_, ?_, ?_, ?_⟩
  · -- placed
    intro v hv hm
    have hvo := (hmem v).2 ⟨hv, hm⟩
    obtain ⟨l, hl1, hl2⟩ := hcov v hvo
    have hlo := hsub.subset hl1
    refine ⟨_, List.mem_map.2 ⟨l, hl1, rfl⟩, (hlab l hlo v hvo).2 (otSame_symm hl2), ?_⟩
    obtain ⟨a, rest, _, hr, ha, hsame, hall⟩ := hrow l hlo
    have hval : ∀ w, w ∈ a :: rest → ident w = ident v → w.val = v.val := by
      intro w hw hid
      obtain ⟨hw1, hw2⟩ := (hall w).1 hw
      obtain ⟨h1, h2⟩ := (hmem w).1 hw1
      obtain ⟨e, he, hew⟩ := List.mem_map.1 h1
      obtain ⟨f, hf, hfv⟩ := List.mem_map.1 hv
      have := hkey e he f hf (by rw [hew]; exact h2) (by rw [hfv]; exact hm) ?_ (by rw [hew, hfv]; exact hid)
      · rw [hew, hfv] at this; exact this
      · rw [hew, hfv, ← tbLabel_eq, ← tbLabel_eq]
        exact (otSame_mem ((hfit w hw1).label_nodup d) ((hfit v hvo).label_nodup d)).1 (otSame_trans hw2 hl2)
    rw [hr]
    rcases otMore_lookup ident rest (otCells d p a a.cha) (ident v) with ⟨h1, h2⟩ | ⟨w, hw, h1, h2⟩
    · rw [h2, otCells_lookup d p a T (ident a) (hfit a ha)]
      have hin : v ∈ a :: rest := (hall v).2 ⟨hvo, otSame_symm hl2⟩
      rcases List.mem_cons.1 hin with rfl | hin
      · right; exact ⟨rfl, rfl⟩
      · exact absurd rfl (h1 v hin)
    · rw [h2, hval w (List.mem_cons_of_mem _ hw) h1]
  · -- once
    intro v hv hm i j r r' hi hj hri hrj
    have hvo := (hmem v).2 ⟨hv, hm⟩
    rw [List.getElem?_map] at hi hj
    obtain ⟨a, hai, rfl⟩ := Option.map_eq_some_iff.1 hi
    obtain ⟨b, hbj, rfl⟩ := Option.map_eq_some_iff.1 hj
    have haL := List.mem_of_getElem? hai
    have hbL := List.mem_of_getElem? hbj
    have h1 := (hlab a (hsub.subset haL) v hvo).1 hri
    have h2 := (hlab b (hsub.subset hbL) v hvo).1 hrj
    have h3 := otSame_trans (otSame_symm h1) h2
    obtain ⟨hi1, hi2⟩ := List.getElem?_eq_some_iff.1 hai
    obtain ⟨hj1, hj2⟩ := List.getElem?_eq_some_iff.1 hbj
    rw [List.pairwise_iff_getElem] at hpw
    rcases Nat.lt_trichotomy i j with hlt | heq | hgt
    · have := hpw i j hi1 hj1 hlt
      rw [hi2, hj2, h3] at this
      exact absurd this (by simp)
    · exact heq
    · have := hpw j i hj1 hi1 hgt
      rw [hi2, hj2, otSame_symm h3] at this
      exact absurd this (by simp)
  · -- only
    intro r hr k x hk
    obtain ⟨l, hl1, rfl⟩ := List.mem_map.1 hr
    have hlo := hsub.subset hl1
    obtain ⟨a, rest, _, hre, ha, hsame, hall⟩ := hrow l hlo
    rw [hre] at hk
    rcases otMore_lookup ident rest (otCells d p a a.cha) k with ⟨h1, h2⟩ | ⟨w, hw, h1, h2⟩
    · rw [h2, otCells_lookup d p a T (ident a) (hfit a ha)] at hk
      rcases hk with ⟨w, _, he⟩ | ⟨he, hx⟩
      · exact absurd he (by simp)
      · injection hx with hx
        obtain ⟨h3, h4⟩ := (hmem a).1 ha
        exact ⟨a, h3, h4, (hlab l hlo a ha).2 hsame, he.symm, hx.symm⟩
    · rw [h2] at hk
      injection hk with hk
      injection hk with hk
      obtain ⟨hw1, hw2⟩ := (hall w).1 (List.mem_cons_of_mem _ hw)
      obtain ⟨h3, h4⟩ := (hmem w).1 hw1
      exact ⟨w, h3, h4, (hlab l hlo w hw1).2 hw2, h1, hk⟩
  · -- order
    refine ⟨L, ?_, ?_, ?_⟩
    · refine hsub.trans ?_
      unfold otOpen
      exact List.filter_sublist.map _
    · intro v hv
      exact ((hmem v).1 (hsub.subset hv)).2
    · rw [List.forall₂_map_left_iff]
      rw [List.forall₂_same]
      intro l hl1
      exact (hlab l (hsub.subset hl1) l (hsub.subset hl1)).2 (otSame_refl _)

/-! ## files -/

/-- the tables that can be written: sheets for networks, HDF5 tables for trees -/
def tbProblem : OtDevice → OtProblem
  | .excel => .opf
  | .h5 => .tree

theorem TbMember_tree (n : Tok) (pt pt' : List Tok) (v : OtVal) : TbMember .tree n pt v ↔ TbMember .tree n pt' v := by
  unfold TbMember
  constructor <;> exact fun h => ⟨h.1, fun e => absurd e (by decide)⟩

theorem TbMember_pos (d : OtDevice) (s : OtSub) (n : Tok) (v : OtVal) : TbMember (tbProblem d) n (otPos d s) v ↔ TbMember (tbProblem d) n s.value v := by
  cases d
  · exact TbMember_tree n _ _ v
  · exact Iff.rfl

theorem TbShown_pos (d : OtDevice) (s : OtSub) (n : Tok) (ident vals rows) (h : TbShown d (tbProblem d) n (otPos d s) ident vals rows) : TbShown d (tbProblem d) n s.value ident vals rows := by
  refine ⟨?_, ?_, ?_, ?_⟩
  · intro v hv hm; exact h.placed v hv ((TbMember_pos d s n v).2 hm)
  · intro v hv hm; exact h.once v hv ((TbMember_pos d s n v).2 hm)
  · intro r hr k x hk
    obtain ⟨v, h1, h2, h3⟩ := h.only r hr k x hk
    exact ⟨v, h1, (TbMember_pos d s n v).1 h2, h3⟩
  · obtain ⟨L, h1, h2, h3⟩ := h.order
    exact ⟨L, h1, fun v hv => (TbMember_pos d s n v).1 (h2 v hv), h3⟩

theorem otTables_shown (d : OtDevice) (pt : List Tok) (ident : OtVal → Tok) (fuel : Nat) (vals : List OtVal) (hpt : d = .excel → pt ≠ [])
    (hname : ∀ v ∈ vals, ∃ nm, (v.cha.filter (fun c => decide (c.key = "name".toList))).map (fun c => c.first) = [nm]) (hfuel : vals.length < fuel) (outs : List OtOut) :
    ∀ vs : List (OtVal × Bool), vs.map Prod.fst = vals → (outs.map (fun o => o.name)).Nodup → (∀ o ∈ outs, o.problem = some (tbProblem d)) →
      (∀ o ∈ outs, ∃ T, ∀ v ∈ vals, TbNamed o.name v → TbRegular (tbProblem d) T v (ident v)) →
      (∀ o ∈ outs, ∀ v ∈ vals, ∀ w ∈ vals, TbMember (tbProblem d) o.name pt v → TbMember (tbProblem d) o.name pt w →
        (∀ k t, (k, t) ∈ tbLabel d (tbProblem d) v ↔ (k, t) ∈ tbLabel d (tbProblem d) w) → ident v = ident w → v.val = w.val) →
      (∀ o ∈ outs, ∀ e ∈ vs, TbMember (tbProblem d) o.name pt e.1 → e.2 = false) →
      ∃ ts, otTables d fuel pt outs vs = .ok (some ts) ∧ List.Forall₂ (fun o t => t.name = o.name ∧ TbShown d (tbProblem d) o.name pt ident vals t.rows) outs ts := by
  induction outs with
  | nil => intro vs _ _ _ _ _ _; exact ⟨[], rfl, .nil⟩
  | cons o outs ih =>
    intro vs hvs hnd hprob hreg hkey hopen
    have hnd' := List.nodup_cons.1 (by simpa using hnd : (o.name :: outs.map (fun o => o.name)).Nodup)
    have hmv : ∀ e ∈ vs, e.1 ∈ vals := fun e he => by rw [← hvs]; exact List.mem_map.2 ⟨e, he, rfl⟩
    obtain ⟨T, hT⟩ := hreg o (by simp)
    obtain ⟨rows, hl, hshown⟩ := otLoop_shown d (tbProblem d) o.name pt T ident vs fuel (fun e he => hname e.1 (hmv e he)) (fun e he => hT e.1 (hmv e he)) (hopen o (by simp))
      (fun e he f hf => hkey o (by simp) e.1 (hmv e he) f.1 (hmv f hf)) (by rw [← hvs, List.length_map] at hfuel; exact hfuel)
    have htab : otTable d fuel pt o vs = .ok (some ([⟨o.name, otColumns (tbProblem d) o.name (vs.map Prod.fst), rows⟩], vs.map (fun e => (e.1, e.2 || otGroup (tbProblem d) o.name pt e.1)))) := by
      unfold otTable
      rw [hprob o (by simp)]
      have h1 : otFirstPos (tbProblem d) pt = .ok () := by
        cases d
        · rfl
        · cases hp : pt with
          | nil => exact absurd hp (hpt rfl)
          | cons a l => rfl
      have h2 : otHeader d (tbProblem d) (otColumns (tbProblem d) o.name (vs.map Prod.fst)) = .ok () := by
        cases d <;> rfl
      simp only [h1, h2, bind, Except.bind]
      rw [hl]
      rfl
    obtain ⟨ts, hts, hall⟩ := ih (vs.map (fun e => (e.1, e.2 || otGroup (tbProblem d) o.name pt e.1))) (by rw [List.map_map]; exact hvs) hnd'.2
      (fun o' h => hprob o' (List.mem_cons_of_mem _ h)) (fun o' h => hreg o' (List.mem_cons_of_mem _ h)) (fun o' h => hkey o' (List.mem_cons_of_mem _ h)) (by
        intro o' ho' e he hm
        obtain ⟨f, hf, rfl⟩ := List.mem_map.1 he
        have h1 := hopen o' (List.mem_cons_of_mem _ ho') f hf hm
        have h2 : otGroup (tbProblem d) o.name pt f.1 = false := by
          rcases hb : otGroup (tbProblem d) o.name pt f.1 with _ | _
          · rfl
          · obtain ⟨nm, hnm⟩ := hname f.1 (hmv f hf)
            have hm2 := (otGroup_iff _ _ _ _ nm hnm).1 hb
            obtain ⟨c, hc, hk, hx⟩ := hm.1
            obtain ⟨c', hc', hk', hx'⟩ := hm2.1
            have hone : ∀ c ∈ f.1.cha, c.key = "name".toList → c.first = nm := by
              intro c hc hk
              have : c.first ∈ (f.1.cha.filter (fun c => decide (c.key = "name".toList))).map (fun c => c.first) :=
                List.mem_map.2 ⟨c, List.mem_filter.2 ⟨hc, by simpa using hk⟩, rfl⟩
              rw [hnm] at this
              simpa using this
            exfalso
            apply hnd'.1
            refine List.mem_map.2 ⟨o', ho', ?_⟩
            rw [← hx, ← hx', hone c hc hk, hone c' hc' hk']
        simp [h1, h2])
    refine ⟨⟨o.name, otColumns (tbProblem d) o.name (vs.map Prod.fst), rows⟩ :: ts, ?_, ?_⟩
    · rw [otTables, htab]
      simp only [bind, Except.bind]
      rw [hts]
      rfl
    · rw [hvs] at hshown
      exact .cons ⟨rfl, hshown⟩ hall

/-- C177: `save_results` ends and writes for every output (networks in Excel sheets, trees in HDF5 tables) the table that shows the values of its name and position -/
theorem C177_shown_partial (d : OtDevice) (fuel : Nat) (outs : List OtOut) (s : OtSub) (vals : List OtVal) (ident : OtVal → Tok)
    (hpos : s.value ≠ []) (hfuel : vals.length < fuel)
    (hkind : ∀ o ∈ outs, o.device = d → o.problem = some (tbProblem d))
    (hnames : ((outs.filter (fun o => o.device = d)).map (fun o => o.name)).Nodup)
    (hname : ∀ v ∈ vals, ∃ nm, (v.cha.filter (fun c => decide (c.key = "name".toList))).map (fun c => c.first) = [nm])
    (hreg : ∀ o ∈ outs, ∃ T, ∀ v ∈ vals, TbNamed o.name v → TbRegular (tbProblem d) T v (ident v))
    (hkey : ∀ o ∈ outs, ∀ v ∈ vals, ∀ w ∈ vals, TbMember (tbProblem d) o.name s.value v → TbMember (tbProblem d) o.name s.value w →
      (∀ k t, (k, t) ∈ tbLabel d (tbProblem d) v ↔ (k, t) ∈ tbLabel d (tbProblem d) w) → ident v = ident w → v.val = w.val) :
    ∃ ts, otSave d fuel outs (some s) vals = .ok (some ts) ∧
      List.Forall₂ (fun o t => t.name = o.name ∧ TbShown d (tbProblem d) o.name s.value ident vals t.rows) (outs.filter (fun o => o.device = d)) ts := by
  have hin : ∀ o ∈ outs.filter (fun o => o.device = d), o ∈ outs ∧ o.device = d := fun o ho => by
    rw [List.mem_filter] at ho; exact ⟨ho.1, by simpa using ho.2⟩
  obtain ⟨ts, h1, h2⟩ := otTables_shown d (otPos d s) ident fuel vals (by rintro rfl; exact hpos) hname hfuel (outs.filter (fun o => o.device = d)) (vals.map (fun v => (v, false)))
    (by rw [List.map_map]; exact List.map_id' vals) hnames (fun o ho => hkind o (hin o ho).1 (hin o ho).2) (fun o ho => hreg o (hin o ho).1)
    (fun o ho v hv w hw hmv hmw => hkey o (hin o ho).1 v hv w hw ((TbMember_pos d s _ v).1 hmv) ((TbMember_pos d s _ w).1 hmw))
    (by
      intro o _ e he _
      obtain ⟨v, _, rfl⟩ := List.mem_map.1 he
      rfl)
  refine ⟨ts, h1, ?_⟩
  exact h2.imp (fun _ _ h => ⟨h.1, TbShown_pos d s _ _ _ _ h.2⟩)

/-! ## what is missing -/

/-- C177: without a subscript "pt" no table is written, whatever outputs are asked for -/
theorem C177_no_position_violated (d : OtDevice) (fuel : Nat) (outs : List OtOut) (vals : List OtVal) : otSave d fuel outs none vals = .ok (some []) := rfl

theorem otPass_none (d p n pt cols) (s : OtPass) (vs : List (OtVal × Bool)) (h : ∀ e ∈ vs, otGroup p n pt e.1 = false) : otPass d p n pt cols s vs = .ok (s, vs) := by
  induction vs with
  | nil => rfl
  | cons e vs ih =>
    rw [otPass, otStep_skip d p n pt cols s e (Or.inr (h e (by simp)))]
    simp only [bind, Except.bind]
    rw [ih (fun x hx => h x (List.mem_cons_of_mem _ hx))]

/-- C177: the HDF5 tables of networks have no rows: the position of the run is compared with the letters of the name of its type.  (The type of a position is "v_string", and a position has another number of parts
than this name has letters.) -/
theorem C177_hdf5_network_violated (fuel : Nat) (outs : List OtOut) (pt : List Tok) (vals : List OtVal) (houts : ∀ o ∈ outs, o.problem = some .opf)
    (hpos : ∀ v ∈ vals, ∃ c ∈ v.cha, c.key = "pt".toList ∧ c.more.length ≠ 7) :
    ∃ ts, otSave .h5 (fuel + 1) outs (some ⟨"v_string".toList, pt⟩) vals = .ok (some ts) ∧ ts.map (fun t => t.rows) = (outs.filter (fun o => o.device = .h5)).map (fun _ => []) := by
  have hgroup : ∀ n, ∀ v ∈ vals, otGroup .opf n (otPos .h5 ⟨"v_string".toList, pt⟩) v = false := by
    intro n v hv
    obtain ⟨c, hc, hk, hl⟩ := hpos v hv
    rcases hb : otGroup .opf n (otPos .h5 ⟨"v_string".toList, pt⟩) v with _ | _
    · rfl
    · have h1 := List.all_eq_true.1 (show v.cha.all (otFits n (otPos .h5 ⟨"v_string".toList, pt⟩)) = true from hb) c hc
      unfold otFits at h1
      rw [Bool.and_eq_true, Bool.or_eq_true, Bool.or_eq_true, Bool.not_eq_true', Bool.not_eq_true', beq_eq_false_iff_ne, beq_eq_false_iff_ne, beq_iff_eq, beq_iff_eq] at h1
      rcases h1.2 with h2 | h2
      · exact absurd hk h2
      · have h3 := congrArg List.length h2
        have h4 : (otPos .h5 ⟨"v_string".toList, pt⟩).length = 8 := by
          show (("v_string".toList).map (fun c => [c])).length = 8
          rw [List.length_map]; rfl
        rw [h4] at h3
        simp only [List.length_cons] at h3
        omega
  have key : ∀ (os : List OtOut) (vs : List (OtVal × Bool)), (∀ o ∈ os, o.problem = some .opf) → (∀ e ∈ vs, e.1 ∈ vals) →
      ∃ ts, otTables .h5 (fuel + 1) (otPos .h5 ⟨"v_string".toList, pt⟩) os vs = .ok (some ts) ∧ ts.map (fun t => t.rows) = os.map (fun _ => []) := by
    intro os
    induction os with
    | nil => intro vs _ _; exact ⟨[], rfl, rfl⟩
    | cons o os ih =>
      intro vs ho hv
      obtain ⟨ts, h1, h2⟩ := ih vs (fun x hx => ho x (List.mem_cons_of_mem _ hx)) hv
      have htab : otTable .h5 (fuel + 1) (otPos .h5 ⟨"v_string".toList, pt⟩) o vs = .ok (some ([⟨o.name, otColumns .opf o.name (vs.map Prod.fst), []⟩], vs)) := by
        unfold otTable
        rw [ho o (by simp)]
        have e1 : otFirstPos .opf (otPos .h5 ⟨"v_string".toList, pt⟩) = .ok () := rfl
        have e2 : otHeader .h5 .opf (otColumns .opf o.name (vs.map Prod.fst)) = .ok () := rfl
        simp only [e1, e2, bind, Except.bind]
        rw [otLoop, otPass_none _ _ _ _ _ _ vs (fun e he => hgroup o.name e.1 (hv e he))]
        rfl
      refine ⟨⟨o.name, otColumns .opf o.name (vs.map Prod.fst), []⟩ :: ts, ?_, ?_⟩
      · rw [otTables, htab]
        simp only [bind, Except.bind]
        rw [h1]
        rfl
      · simp [h2]
  exact key _ _ (fun o ho => houts o (List.mem_filter.1 ho).1) (by
    intro e he
    obtain ⟨v, hv, rfl⟩ := List.mem_map.1 he
    exact hv)

/-- C177: the sheet of a tree cannot be written: with any value of its name the names of the columns are unpacked and `save_results` fails -/
theorem C177_excel_tree_violated (fuel : Nat) (o : OtOut) (outs : List OtOut) (s : OtSub) (vals : List OtVal) (ho : o.device = .excel) (hp : o.problem = some .tree) (v : OtVal) (hv : v ∈ vals)
    (hn : TbNamed o.name v) (c : OtCha) (hc : c ∈ v.cha) (hk : c.key = "reference".toList) : ∃ e, otSave .excel fuel (o :: outs) (some s) vals = .error e := by
  have hcols : otColumns .tree o.name vals ≠ [] := by
    intro he
    have hvm : v ∈ vals.filter (otNamed o.name) := List.mem_filter.2 ⟨hv, (otNamed_iff o.name v).2 hn⟩
    obtain ⟨l1, l2, hsplit⟩ := List.append_of_mem hvm
    unfold otColumns at he
    rw [hsplit, List.foldl_append, List.foldl_cons] at he
    generalize l1.foldl (otIdCol .tree) (otTimeCols .tree o.name vals) = base at he
    have hne : otIdCol .tree base v ≠ [] := by
      unfold otIdCol
      split
      · simp
      · rename_i hnone
        have := List.find?_eq_none.1 hnone c hc
        have hck : (c.key == otIdKey .tree) = true := by rw [beq_iff_eq]; exact hk
        simp only [hck, Bool.true_and, Bool.not_eq_true'] at this
        have hh : c.first ∈ base := by simpa using this
        exact List.ne_nil_of_mem hh
    obtain ⟨a, l, hal⟩ := List.exists_cons_of_ne_nil hne
    have := otIdCol_mono .tree l2 (otIdCol .tree base v) a (by rw [hal]; simp)
    rw [he] at this
    exact absurd this (by simp)
  obtain ⟨a, l, hal⟩ := List.exists_cons_of_ne_nil hcols
  have hmap : (vals.map (fun v => (v, false))).map Prod.fst = vals := by rw [List.map_map]; exact List.map_id' vals
  unfold otSave
  simp only
  rw [List.filter_cons_of_pos (by simpa using ho), otTables]
  unfold otTable
  rw [hp]
  have e1 : otFirstPos .tree (otPos .excel s) = .ok () := rfl
  simp only [hmap, e1, hal, bind, Except.bind, otHeader]
  by_cases h2 : a.length = 2
  · exact ⟨.type, by rw [if_pos h2]⟩
  · exact ⟨.value, by rw [if_neg h2]⟩

/-- C178: with HDF5 outputs the files can be closed -/
theorem C178_closed_partial (outs : List OtOut) (o : OtOut) (ho : o ∈ outs) (hd : o.device = .h5) : otClose outs = .ok () := by
  unfold otClose
  rw [if_pos (List.any_eq_true.2 ⟨o, ho, by simpa using hd⟩)]

/-- C178: with Excel outputs only, closing fails -/
theorem C178_close_violated (outs : List OtOut) (h : ∀ o ∈ outs, o.device = .excel) : otClose outs = .error .attribute := by
  unfold otClose
  rw [if_neg]
  intro hh
  obtain ⟨o, ho, hd⟩ := List.any_eq_true.1 hh
  rw [h o ho] at hd
  exact absurd hd (by decide)

/-! a value without identifier -/

theorem otFirst_noId (d p cols) (v : OtVal) (l : List OtCha) (h : ∀ c ∈ l, c.key ≠ otIdKey p) : ∀ s f : OtFirst, l.foldlM (otFirstStep d p cols v.val) s = .ok f → f.used = s.used := by
  induction l with
  | nil =>
    intro s f hf
    simp only [List.foldlM_nil, pure, Except.pure, Except.ok.injEq] at hf
    rw [hf]
  | cons c l ih =>
    intro s f hf
    rw [List.foldlM_cons, except_bind_ok] at hf
    obtain ⟨m, hm, hf⟩ := hf
    rw [ih (fun x hx => h x (List.mem_cons_of_mem _ hx)) m f hf]
    unfold otFirstStep at hm
    by_cases ht : otIsTime p c.key = true
    · rw [if_pos ht, except_bind_ok] at hm
      obtain ⟨row, _, hm⟩ := hm
      injection hm with hm
      rw [← hm]
    · rw [if_neg ht, if_neg (by simpa using h c (by simp))] at hm
      injection hm with hm
      rw [hm]

/-- a value that is open and has no identifier keeps the loop going -/
theorem otPass_stuck (d p n pt cols) (v : OtVal) (hg : otGroup p n pt v = true) (hno : ∀ c ∈ v.cha, c.key ≠ otIdKey p) (hcols : [] ∉ cols) (vs : List (OtVal × Bool)) :
    ∀ (s : OtPass) (r : OtPass × List (OtVal × Bool)), (s.ref ≠ [] → s.isEnd = false) → otPass d p n pt cols s vs = .ok r →
      (s.isEnd = false → r.1.isEnd = false) ∧ ((v, false) ∈ vs → r.1.isEnd = false ∧ (v, false) ∈ r.2) := by
  induction vs with
  | nil =>
    intro s r _ h
    rw [otPass] at h
    injection h with h
    subst h
    exact ⟨fun h => h, fun h => absurd h (by simp)⟩
  | cons e vs ih =>
    intro s r hs h
    rw [otPass, except_bind_ok] at h
    obtain ⟨q, hq, h⟩ := h
    rw [except_bind_ok] at h
    obtain ⟨t, ht, h⟩ := h
    injection h with h
    subst h
    -- the step
    have hstep : (q.1.ref ≠ [] → q.1.isEnd = false) ∧ (s.isEnd = false → q.1.isEnd = false) ∧ (e = (v, false) → q.1.isEnd = false ∧ q.2 = false) := by
      unfold otStep at hq
      by_cases h1 : (e.2 || !otGroup p n pt e.1) = true
      · rw [if_pos h1] at hq
        injection hq with hq
        subst hq
        refine ⟨hs, fun h => h, ?_⟩
        rintro rfl
        rw [hg] at h1
        exact absurd h1 (by simp)
      · rw [if_neg h1] at hq
        by_cases h2 : s.ref = []
        · rw [if_pos h2, except_bind_ok] at hq
          obtain ⟨f, hf, hq⟩ := hq
          injection hq with hq
          subst hq
          refine ⟨fun _ => rfl, fun _ => rfl, ?_⟩
          rintro rfl
          exact ⟨rfl, otFirst_noId d p cols v v.cha hno _ f hf⟩
        · rw [if_neg h2] at hq
          by_cases h3 : otSame (otDict d p e.1) s.ref = true
          · rw [if_pos h3, except_bind_ok] at hq
            obtain ⟨row, hrow, hq⟩ := hq
            injection hq with hq
            subst hq
            refine ⟨fun _ => rfl, fun _ => rfl, ?_⟩
            rintro rfl
            exfalso
            have hid : otLastId p v = [] := by
              have : v.cha.filter (fun c => c.key == otIdKey p) = [] := by
                rw [List.filter_eq_nil_iff]
                intro c hc hk
                exact hno c hc (by simpa using hk)
              unfold otLastId
              rw [this]; rfl
            rw [show otLastId p (v, false).1 = [] from hid] at hrow
            unfold otWrite at hrow
            rw [if_neg (by simpa using hcols)] at hrow
            exact absurd hrow (by simp)
          · rw [if_neg h3] at hq
            injection hq with hq
            subst hq
            refine ⟨hs, fun h => h, ?_⟩
            rintro rfl
            exact ⟨hs h2, rfl⟩
    obtain ⟨hr1, hr2⟩ := ih q.1 t hstep.1 ht
    refine ⟨fun h => hr1 (hstep.2.1 h), ?_⟩
    intro hmem
    rcases List.mem_cons.1 hmem with he | hmem
    · obtain ⟨h3, h4⟩ := hstep.2.2 he.symm
      refine ⟨hr1 h3, ?_⟩
      rw [← he, h4]
      simp
    · obtain ⟨h3, h4⟩ := hr2 hmem
      exact ⟨h3, List.mem_cons_of_mem _ h4⟩

theorem otLoop_stuck (d p n pt cols) (v : OtVal) (hg : otGroup p n pt v = true) (hno : ∀ c ∈ v.cha, c.key ≠ otIdKey p) (hcols : [] ∉ cols) (fuel : Nat) :
    ∀ (vs : List (OtVal × Bool)), (v, false) ∈ vs → ∀ r, otLoop d p n pt cols fuel vs ≠ .ok (some r) := by
  induction fuel with
  | zero => intro vs _ r h; simp [otLoop] at h
  | succ fuel ih =>
    intro vs hv r h
    rw [otLoop, except_bind_ok] at h
    obtain ⟨q, hq, h⟩ := h
    obtain ⟨h1, h2⟩ := (otPass_stuck d p n pt cols v hg hno hcols vs _ q (fun h => absurd rfl h) hq).2 hv
    rw [h1, if_neg (by simp), except_bind_ok] at h
    obtain ⟨t, ht, h⟩ := h
    cases t with
    | none => simp at h
    | some t => exact ih _ h2 t ht

theorem otColumns_nil (p n) (vals : List OtVal) (hk : ∀ v ∈ vals, ∀ c ∈ v.cha, c.key ≠ [] ∧ c.first ≠ []) : [] ∉ otColumns p n vals := by
  have htime : [] ∉ otTimeCols p n vals := by
    intro h
    have hsub : ∃ w ∈ vals, [] ∈ otTimeKeys p w := by
      unfold otTimeCols at h
      cases p
      · have h : [] ∈ ((((vals.filter (otNamed n)).take 1).flatMap (otTimeKeys .opf)).foldl otInsert []) := h
        rw [otInsert_fold] at h
        rcases h with h | h
        · exact absurd h (by simp)
        · obtain ⟨w, hw, h⟩ := List.mem_flatMap.1 h
          exact ⟨w, (List.mem_filter.1 (List.mem_of_mem_take hw)).1, h⟩
      · have h : [] ∈ (((vals.filter (otNamed n)).flatMap (otTimeKeys .tree)).foldl otInsert []) := h
        rw [otInsert_fold] at h
        rcases h with h | h
        · exact absurd h (by simp)
        · obtain ⟨w, hw, h⟩ := List.mem_flatMap.1 h
          exact ⟨w, (List.mem_filter.1 hw).1, h⟩
    obtain ⟨w, hw, h⟩ := hsub
    obtain ⟨c, hc, he⟩ := List.mem_map.1 h
    exact (hk w hw c (List.mem_filter.1 hc).1).1 he
  have : ∀ (l : List OtVal), (∀ v ∈ l, v ∈ vals) → ∀ cols, [] ∉ cols → [] ∉ l.foldl (otIdCol p) cols := by
    intro l
    induction l with
    | nil => intro _ cols h; exact h
    | cons v l ih =>
      intro hl cols h
      rw [List.foldl_cons]
      apply ih (fun x hx => hl x (List.mem_cons_of_mem _ hx))
      unfold otIdCol
      split
      · rename_i c hc
        intro hh
        rcases List.mem_append.1 hh with hh | hh
        · exact h hh
        · have : c.first = [] := (List.mem_singleton.1 hh).symm
          exact (hk v (hl v (by simp)) c (List.mem_of_find?_eq_some hc)).2 this
      · exact h
  exact this _ (fun v hv => (List.mem_filter.1 hv).1) _ htime

/-- C178: if a value of the first Excel output has no identifier (column), `save_results` fails or never ends -/
theorem C178_endless_violated (d : OtDevice) (o : OtOut) (outs : List OtOut) (s : OtSub) (vals : List OtVal) (p : OtProblem) (ho : o.device = d) (hp : o.problem = some p)
    (v : OtVal) (hv : v ∈ vals) (nm : Tok) (hnm : (v.cha.filter (fun c => decide (c.key = "name".toList))).map (fun c => c.first) = [nm]) (hm : TbMember p o.name (otPos d s) v)
    (hno : ∀ c ∈ v.cha, c.key ≠ tbColKey p) (hk : ∀ v ∈ vals, ∀ c ∈ v.cha, c.key ≠ [] ∧ c.first ≠ []) :
    ∀ fuel ts, otSave d fuel (o :: outs) (some s) vals ≠ .ok (some ts) := by
  intro fuel ts h
  have hmap : (vals.map (fun v => (v, false))).map Prod.fst = vals := by rw [List.map_map]; exact List.map_id' vals
  unfold otSave at h
  simp only at h
  rw [List.filter_cons_of_pos (by simpa using ho), otTables, except_bind_ok] at h
  obtain ⟨r, hr, h⟩ := h
  cases r with
  | none => simp at h
  | some q =>
    unfold otTable at hr
    rw [hp] at hr
    simp only [hmap] at hr
    rw [except_bind_ok] at hr
    obtain ⟨_, _, hr⟩ := hr
    rw [except_bind_ok] at hr
    obtain ⟨_, _, hr⟩ := hr
    rw [except_bind_ok] at hr
    obtain ⟨t, ht, hr⟩ := hr
    cases t with
    | none => simp at hr
    | some t =>
      refine otLoop_stuck d p o.name (otPos d s) _ v ((otGroup_iff p o.name _ v nm hnm).2 hm) ?_ (otColumns_nil p o.name vals hk) fuel _ ?_ t ht
      · intro c hc; rw [tbColKey_eq]; exact hno c hc
      · exact List.mem_map.2 ⟨v, hv, rfl⟩

/-! ## an example -/

/-- output of two generators in two hours at the position week, weekday; the second generator at another position as well -/
def exTb (id hour pos : String) (x : Rat) : OtVal :=
  ⟨x, [⟨"ID".toList, id.toList, []⟩, ⟨"name".toList, "output".toList, []⟩, ⟨"hour".toList, hour.toList, []⟩, ⟨"pt".toList, "week".toList, [pos.toList]⟩, ⟨"zone".toList, "1".toList, []⟩]⟩

def exTbVals : List OtVal := [exTb "G1" "1" "weekday" 3, exTb "G2" "1" "weekend" 9, exTb "G1" "2" "weekday" 4, exTb "G2" "1" "weekday" 5, exTb "G2" "2" "weekday" 6]

def exTbOut : OtOut := ⟨.excel, "output".toList, some .opf⟩
def exTbSub : OtSub := ⟨"v_string".toList, ["week".toList, "weekday".toList]⟩

/-- the hypotheses of C177_shown_partial hold for the example -/
example : ∀ v ∈ exTbVals, ∃ T, TbRegular .opf T v (otLastId .opf v) := by
  intro v hv
  have : v = exTb "G1" "1" "weekday" 3 ∨ v = exTb "G2" "1" "weekend" 9 ∨ v = exTb "G1" "2" "weekday" 4 ∨ v = exTb "G2" "1" "weekday" 5 ∨ v = exTb "G2" "2" "weekday" 6 := by
    simpa [exTbVals] using hv
  refine ⟨["hour".toList, "pt".toList], ?_⟩
  rcases this with rfl | rfl | rfl | rfl | rfl <;>
    exact ⟨List.Perm.of_eq (by decide +kernel), by decide +kernel, by decide +kernel, by decide +kernel, by decide +kernel⟩

/-- and this is its sheet: two rows, the value of the other position is not there -/
example : (otSave .excel 6 [exTbOut] (some exTbSub) exTbVals).toOption = some (some [⟨"output".toList, ["hour".toList, "pt".toList, "G1".toList, "G2".toList],
    [[("G1".toList, .num 3), ("hour".toList, .text "1".toList), ("pt".toList, .text "week|weekday".toList), ("G2".toList, .num 5)],
     [("G1".toList, .num 4), ("hour".toList, .text "2".toList), ("pt".toList, .text "week|weekday".toList), ("G2".toList, .num 6)]]⟩]) := by decide +kernel

/-- the same values asked for in an HDF5 file give an empty table -/
example : (otSave .h5 6 [⟨.h5, "output".toList, some .opf⟩] (some exTbSub) exTbVals).toOption.map (fun r => r.map (fun ts => ts.map (fun t => t.rows.length))) = some (some [0]) := by decide +kernel

/-- C177: an output that is asked for twice is shown once: its second sheet is empty -/
theorem C177_repeated_violated : (otSave .excel 6 [exTbOut, exTbOut] (some exTbSub) exTbVals).toOption.map (fun r => r.map (fun ts => ts.map (fun t => t.rows.length))) = some (some [2, 0]) := by decide +kernel

end Pyensys
