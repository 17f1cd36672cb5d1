import Verif.Model.Workbook
import Verif.Props.AttestOptions

/-!
# Sheets of buses, branches and generators

C183: what is read from such a sheet.
-/

namespace Pyensys

/-- the cells of an element in the columns with a name, in the order of the columns; the column of the IDs is not one of them -/
def xCellsOf (columns : List (Option Tok)) (k : Nat) (row : XRow) (name : Tok) : List XCell :=
  columns.zipIdx.filterMap (fun c => if c.2 ≠ k ∧ c.1 = some name then xCell row c.2 else none)

/-- the parameters of an element: for each column of a parameter whose cell is not empty, the name, the value and the kind of data -/
def xParamsOf (columns : List (Option Tok)) (k : Nat) (row : XRow) : List (Tok × XCell × XDt) :=
  columns.zipIdx.filterMap (fun c => if c.2 = k then none else
    match c.1, xCell row c.2 with
    | some n, some v => (match xKind n with
      | some (.param dt) => some (n, v, dt)
      | _ => none)
    | _, _ => none)

/-- the same for any list of columns -/
def xCellsIn (k : Nat) (row : XRow) (name : Tok) (cols : List (Option Tok × Nat)) : List XCell :=
  cols.filterMap (fun c => if c.2 ≠ k ∧ c.1 = some name then xCell row c.2 else none)

/-- the same for any list of columns -/
def xParamsIn (k : Nat) (row : XRow) (cols : List (Option Tok × Nat)) : List (Tok × XCell × XDt) :=
  cols.filterMap (fun c => if c.2 = k then none else
    match c.1, xCell row c.2 with
    | some n, some v => (match xKind n with
      | some (.param dt) => some (n, v, dt)
      | _ => none)
    | _, _ => none)

/-- values of the characteristics with a name -/
def xValues (cs : List XChar) (n : Tok) : List XVal := (cs.filter (fun c => c.name == n)).map (·.value)

theorem xAddSubtype_other (t : XCell) (n : Tok) (hn : n ≠ "subtype".toList) : ∀ cs : List XChar, xValues (xAddSubtype t cs) n = xValues cs n
  | [] => by
      have : ("subtype".toList == n) = false := by
        rw [beq_eq_false_iff_ne]; exact fun h => hn h.symm
      simp only [xAddSubtype, xValues, List.filter_cons, this]
      rfl
  | c :: cs => by
      rw [xAddSubtype.eq_def]; dsimp only
      by_cases hc : c.name == "subtype".toList
      · rw [if_pos hc]
        have hcn : (c.name == n) = false := by
          rw [beq_iff_eq] at hc
          rw [beq_eq_false_iff_ne, hc]; exact fun h => hn h.symm
        cases hv : c.value with
        | one a => rfl
        | many l => simp only [xValues, List.filter_cons, hcn, Bool.false_eq_true, if_false]
      · rw [if_neg hc]
        have := xAddSubtype_other t n hn cs
        simp only [xValues, List.filter_cons] at this ⊢
        by_cases hcn : c.name == n
        · simp only [hcn, if_true, List.map_cons, this]
        · simp only [hcn, this, Bool.false_eq_true, if_false]

/-- the subtypes so far: none, or one characteristic with all of them -/
def XSubtypes (cs : List XChar) (l : List XCell) : Prop :=
  xValues cs "subtype".toList = if l = [] then [] else [.many l]

theorem xAddSubtype_same (t : XCell) : ∀ (cs : List XChar) (l : List XCell), XSubtypes cs l → XSubtypes (xAddSubtype t cs) (l ++ [t])
  | [], l, h => by
      unfold XSubtypes xValues at h ⊢
      have hl : l = [] := by
        by_contra hne
        rw [if_neg hne] at h
        cases h
      subst hl
      rfl
  | c :: cs, l, h => by
      rw [xAddSubtype.eq_def]; dsimp only
      by_cases hc : c.name == "subtype".toList
      · rw [if_pos hc]
        unfold XSubtypes xValues at h ⊢
        rw [List.filter_cons, if_pos hc, List.map_cons] at h
        have hl : l ≠ [] := by
          rintro rfl
          rw [if_pos rfl] at h
          cases h
        rw [if_neg hl] at h
        injection h with h1 h2
        rw [h1]
        dsimp only
        rw [List.filter_cons, if_pos hc, List.map_cons, h2]
        rw [if_neg (by simp)]
      · rw [if_neg hc]
        have ih := xAddSubtype_same t cs l
        unfold XSubtypes xValues at h ih ⊢
        rw [List.filter_cons, if_neg hc] at h ⊢
        exact ih h

theorem xKind_subtype : xKind "subtype".toList = some (.char .string) := by decide +kernel

/-- what becomes of a cell of a characteristic: as it is, or as a text -/
def xConv (str : XCell → Tok) (dt : XDt) (v : XCell) : XCell := if dt = .string then .text (str v) else v

/-- one column -/
theorem xColumn_step (str : XCell → Tok) (k : Nat) (row : XRow) (cs : List XChar) (ps : List XInfo) (col : Option Tok × Nat) :
    (xColumn str k row (cs, ps) col).2
      = ps ++ (xParamsIn k row [col]).map (fun q => ⟨[⟨"name".toList, .one (.text q.1), .string⟩], q.2.1, q.2.2⟩) ∧
    (∀ n dt, n ≠ "subtype".toList → xKind n = some (.char dt) →
      xValues (xColumn str k row (cs, ps) col).1 n = xValues cs n ++ (xCellsIn k row n [col]).map (fun v => .one (xConv str dt v))) ∧
    (∀ n, (∀ dt, xKind n ≠ some (.char dt)) → xValues (xColumn str k row (cs, ps) col).1 n = xValues cs n) ∧
    (∀ l, XSubtypes cs l →
      XSubtypes (xColumn str k row (cs, ps) col).1 (l ++ (xCellsIn k row "subtype".toList [col]).map (fun v => .text (str v)))) := by
  obtain ⟨name, i⟩ := col
  unfold xColumn xParamsIn xCellsIn
  dsimp only
  by_cases hk : i = k
  · simp only [hk, if_true, List.filterMap_cons, List.filterMap_nil, ne_eq, not_true_eq_false, false_and, if_false, List.map_nil, List.append_nil, true_and,
      implies_true]
    exact fun l h => h
  · simp only [hk, if_false, List.filterMap_cons, List.filterMap_nil, ne_eq, not_false_eq_true, true_and]
    cases name with
    | none =>
      refine ⟨by simp, ?_, fun _ _ => rfl, ?_⟩
      · intro n dt _ _
        simp
      · intro l h
        simpa using h
    | some nm =>
      cases hv : xCell row i with
      | none =>
        dsimp only
        refine ⟨by simp, ?_, fun _ _ => rfl, ?_⟩
        · intro n dt _ _
          by_cases hn : some nm = some n <;> simp [hn]
        · intro l h
          by_cases hn : some nm = some "subtype".toList
          · simp only [hn, if_true, List.map_nil, List.append_nil]; exact h
          · simp only [hn, if_false, List.map_nil, List.append_nil]; exact h
      | some v =>
        dsimp only
        cases hkd : xKind nm with
        | none =>
          dsimp only
          have hns : ¬ some nm = some "subtype".toList := by
            intro h
            injection h with h
            rw [h, xKind_subtype] at hkd
            cases hkd
          refine ⟨by simp, ?_, fun _ _ => rfl, ?_⟩
          · intro n dt _ hd
            have : ¬ some nm = some n := by
              intro h
              injection h with h
              rw [h, hd] at hkd
              cases hkd
            simp [this]
          · intro l h
            simp only [hns, if_false, List.map_nil, List.append_nil]; exact h
        | some kd =>
          cases kd with
          | param dt =>
            dsimp only
            have hns : ¬ some nm = some "subtype".toList := by
              intro h
              injection h with h
              rw [h, xKind_subtype] at hkd
              cases hkd
            refine ⟨by simp, ?_, fun _ _ => rfl, ?_⟩
            · intro n dt' _ hd
              have : ¬ some nm = some n := by
                intro h
                injection h with h
                rw [h, hd] at hkd
                cases hkd
              simp [this]
            · intro l h
              simp only [hns, if_false, List.map_nil, List.append_nil]; exact h
          | char dt =>
            by_cases hst : nm = "subtype".toList
            · have hdt : dt = .string := by
                rw [hst, xKind_subtype] at hkd
                injection hkd with h
                injection h with h
                exact h.symm
              subst hdt
              have hb : (nm == "subtype".toList) = true := by rw [beq_iff_eq]; exact hst
              dsimp only
              rw [if_pos hb]
              refine ⟨by simp, ?_, ?_, ?_⟩
              · intro n dt' hn _
                have hne : ¬ some nm = some n := by
                  intro h
                  injection h with h
                  exact hn (h.symm.trans hst)
                simp only [hne, if_false, List.map_nil, List.append_nil]
                exact xAddSubtype_other _ n hn cs
              · intro n hn
                apply xAddSubtype_other
                intro h
                rw [h] at hn
                exact hn _ xKind_subtype
              · intro l h
                have he : some nm = some "subtype".toList := by rw [hst]
                simp only [he, if_true, List.map_cons, List.map_nil]
                exact xAddSubtype_same _ cs l h
            · have hb : ¬ (nm == "subtype".toList) = true := by rw [beq_iff_eq]; exact hst
              have hns : ¬ some nm = some "subtype".toList := by
                intro h
                injection h with h
                exact hst h
              have key : ∀ (c : XChar), c.name = nm → c.value = .one (xConv str dt v) →
                  ((∀ n dt', n ≠ "subtype".toList → xKind n = some (.char dt') →
                    xValues (cs ++ [c]) n = xValues cs n ++ (if nm = n then [v] else []).map (fun v => .one (xConv str dt' v))) ∧
                  (∀ n, (∀ dt, xKind n ≠ some (.char dt)) → xValues (cs ++ [c]) n = xValues cs n) ∧
                  (∀ l, XSubtypes cs l → XSubtypes (cs ++ [c]) (l ++ ([] : List XCell)))) := by
                intro c hcn hcv
                have hval : ∀ n, xValues (cs ++ [c]) n = xValues cs n ++ (if nm = n then [c.value] else []) := by
                  intro n
                  unfold xValues
                  rw [List.filter_append, List.map_append]
                  congr 1
                  by_cases h : nm = n
                  · have : (c.name == n) = true := by rw [beq_iff_eq, hcn]; exact h
                    rw [List.filter_cons, if_pos this, if_pos h]
                    rfl
                  · have : ¬ (c.name == n) = true := by rw [beq_iff_eq, hcn]; exact h
                    rw [List.filter_cons, if_neg this, if_neg h]
                    rfl
                refine ⟨?_, ?_, ?_⟩
                · intro n dt' _ hd
                  rw [hval]
                  congr 1
                  by_cases h : nm = n
                  · have hdd : dt' = dt := by
                      rw [← h, hkd] at hd
                      injection hd with hd
                      injection hd with hd
                      exact hd.symm
                    rw [if_pos h, if_pos h, hcv, hdd]
                    rfl
                  · rw [if_neg h, if_neg h]
                    rfl
                · intro n hn
                  rw [hval, if_neg, List.append_nil]
                  intro h
                  rw [← h] at hn
                  exact hn _ hkd
                · intro l h
                  unfold XSubtypes at h ⊢
                  rw [hval, if_neg hst, List.append_nil, List.append_nil]
                  exact h
              cases dt with
              | string =>
                dsimp only
                rw [if_neg hb]
                obtain ⟨h1, h2, h3⟩ := key ⟨nm, .one (.text (str v)), .string⟩ rfl rfl
                refine ⟨by simp, ?_, h2, ?_⟩
                · intro n dt' hn hd
                  refine (h1 n dt' hn hd).trans ?_
                  by_cases h : nm = n
                  · simp [h]
                  · simp [h]
                · intro l h
                  rw [if_neg hns]
                  exact h3 l h
              | integer | double | bool | vInteger | vDouble | vString | vBool =>
                dsimp only
                obtain ⟨h1, h2, h3⟩ := key ⟨nm, .one v, _⟩ rfl rfl
                refine ⟨by simp, ?_, h2, ?_⟩
                · intro n dt' hn hd
                  refine (h1 n dt' hn hd).trans ?_
                  by_cases h : nm = n
                  · simp [h]
                  · simp [h]
                · intro l h
                  rw [if_neg hns]
                  exact h3 l h

theorem xColumn_fold (str : XCell → Tok) (k : Nat) (row : XRow) : ∀ (cols : List (Option Tok × Nat)) (cs : List XChar) (ps : List XInfo),
    (cols.foldl (xColumn str k row) (cs, ps)).2
      = ps ++ (xParamsIn k row cols).map (fun q => ⟨[⟨"name".toList, .one (.text q.1), .string⟩], q.2.1, q.2.2⟩) ∧
    (∀ n dt, n ≠ "subtype".toList → xKind n = some (.char dt) →
      xValues (cols.foldl (xColumn str k row) (cs, ps)).1 n = xValues cs n ++ (xCellsIn k row n cols).map (fun v => .one (xConv str dt v))) ∧
    (∀ n, (∀ dt, xKind n ≠ some (.char dt)) → xValues (cols.foldl (xColumn str k row) (cs, ps)).1 n = xValues cs n) ∧
    (∀ l, XSubtypes cs l →
      XSubtypes (cols.foldl (xColumn str k row) (cs, ps)).1 (l ++ (xCellsIn k row "subtype".toList cols).map (fun v => .text (str v))))
  | [], cs, ps => by
      refine ⟨by simp [xParamsIn], fun n dt _ _ => by simp [xCellsIn], fun n _ => rfl, fun l h => ?_⟩
      simp only [xCellsIn, List.filterMap_nil, List.map_nil, List.append_nil]
      exact h
  | col :: cols, cs, ps => by
      obtain ⟨a1, a2, a3, a4⟩ := xColumn_step str k row cs ps col
      obtain ⟨b1, b2, b3, b4⟩ := xColumn_fold str k row cols (xColumn str k row (cs, ps) col).1 (xColumn str k row (cs, ps) col).2
      have hP : xParamsIn k row (col :: cols) = xParamsIn k row [col] ++ xParamsIn k row cols := by
        unfold xParamsIn
        rw [← List.filterMap_append]; rfl
      have hC : ∀ n, xCellsIn k row n (col :: cols) = xCellsIn k row n [col] ++ xCellsIn k row n cols := by
        intro n
        unfold xCellsIn
        rw [← List.filterMap_append]; rfl
      rw [List.foldl_cons, hP]
      refine ⟨?_, ?_, ?_, ?_⟩
      · rw [b1, a1, List.map_append, List.append_assoc]
      · intro n dt hn hd
        rw [b2 n dt hn hd, a2 n dt hn hd, hC, List.map_append, List.append_assoc]
      · intro n hn
        rw [b3 n hn, a3 n hn]
      · intro l h
        have := b4 _ (a4 l h)
        rw [List.append_assoc, ← List.map_append, ← hC] at this
        exact this

/-- what one element gives -/
structure XElementOk (str : XCell → Tok) (typ : Tok) (columns : List (Option Tok)) (k : Nat) (row : XRow) (id : XCell) (l : List XInfo) : Prop where
  /-- one entry for each column of a parameter whose cell is not empty, with its name and value, in the order of the columns -/
  params : l.map (fun x => (x.get "name".toList, x.value, x.dt)) = (xParamsOf columns k row).map (fun q => (.one (.text q.1), q.2))
  /-- each of them has the ID and the type of the element -/
  ids : ∀ x ∈ l, x.get "ID".toList = .one id ∧ x.get "type".toList = .one (.text typ)
  /-- and the integer characteristics of the element (the first column of the name that is not empty) -/
  ints : ∀ x ∈ l, ∀ n, xKind n = some (.char .integer) →
    (∀ v, (xCellsOf columns k row n).head? = some v → x.get n = .one v) ∧ (x.has n = true ↔ xCellsOf columns k row n ≠ [])
  /-- and the text characteristics, as texts -/
  texts : ∀ x ∈ l, ∀ n ∈ ["name_bus".toList, "zone".toList, "group".toList],
    (∀ v, (xCellsOf columns k row n).head? = some v → x.get n = .one (.text (str v))) ∧ (x.has n = true ↔ xCellsOf columns k row n ≠ [])
  /-- and all the subtypes -/
  subtypes : ∀ x ∈ l, (xCellsOf columns k row "subtype".toList ≠ [] →
      x.get "subtype".toList = .many ((xCellsOf columns k row "subtype".toList).map (fun v => .text (str v)))) ∧
    (x.has "subtype".toList = true ↔ xCellsOf columns k row "subtype".toList ≠ [])
  /-- no element has an hour or a position in the tree -/
  constant : ∀ x ∈ l, x.has "pt".toList = false ∧ x.has "hour".toList = false

theorem xGet_values (x : XInfo) (n : Tok) : x.get n = ((xValues x.chars n).head?).getD (.one (.text "N/A".toList)) := by
  unfold XInfo.get xValues
  rw [List.head?_map, List.head?_filter]
  cases x.chars.find? (fun c => c.name == n) <;> rfl

theorem xHas_values (x : XInfo) (n : Tok) : x.has n = true ↔ xValues x.chars n ≠ [] := by
  unfold XInfo.has xValues
  rw [List.any_eq_true, ne_eq, List.map_eq_nil_iff, List.filter_eq_nil_iff]
  push Not
  rfl

theorem xElement_ok (str : XCell → Tok) (typ : Tok) (columns : List (Option Tok)) (k : Nat) (row : XRow) (id : XCell) :
    XElementOk str typ columns k row id (xElement str typ columns k row id) := by
  obtain ⟨h1, h2, h3, h4⟩ := xColumn_fold str k row columns.zipIdx
    [⟨"ID".toList, .one id, .string⟩, ⟨"type".toList, .one (.text typ), .string⟩] []
  unfold xElement
  dsimp only
  generalize hr : List.foldl (xColumn str k row) _ columns.zipIdx = r at h1 h2 h3 h4 ⊢
  have hmem : ∀ x ∈ r.2.map (fun x => (⟨x.chars ++ r.1, x.value, x.dt⟩ : XInfo)), ∃ n : Tok,
      x.chars = ⟨"name".toList, .one (.text n), .string⟩ :: r.1 := by
    intro x hx
    rw [List.mem_map] at hx
    obtain ⟨y, hy, rfl⟩ := hx
    rw [h1, List.nil_append, List.mem_map] at hy
    obtain ⟨q, _, rfl⟩ := hy
    exact ⟨q.1, rfl⟩
  have hval : ∀ x ∈ r.2.map (fun x => (⟨x.chars ++ r.1, x.value, x.dt⟩ : XInfo)), ∀ n : Tok, n ≠ "name".toList → xValues x.chars n = xValues r.1 n := by
    intro x hx n hn
    obtain ⟨m, hm⟩ := hmem x hx
    rw [hm]
    unfold xValues
    rw [List.filter_cons, if_neg]
    rw [beq_iff_eq]
    exact fun h => hn h.symm
  refine ⟨?_, ?_, ?_, ?_, ?_, ?_⟩
  · rw [h1, List.nil_append, List.map_map, List.map_map]
    rfl
  · intro x hx
    have hid := h2 "ID".toList .string (by decide +kernel) (by decide +kernel)
    have hty := h3 "type".toList (fun dt h => by rw [show xKind "type".toList = none by decide +kernel] at h; cases h)
    rw [xGet_values, xGet_values, hval x hx _ (by decide +kernel), hval x hx _ (by decide +kernel), hid, hty]
    exact ⟨rfl, rfl⟩
  · intro x hx n hn
    have hne : n ≠ "name".toList := by
      rintro rfl
      exact absurd hn (by decide +kernel)
    have hns : n ≠ "subtype".toList := by
      rintro rfl
      exact absurd hn (by decide +kernel)
    have hnil : xValues [⟨"ID".toList, .one id, .string⟩, ⟨"type".toList, .one (.text typ), .string⟩] n = [] := by
      unfold xValues
      rw [List.map_eq_nil_iff, List.filter_eq_nil_iff]
      intro c hc
      rw [beq_iff_eq]
      intro h
      simp only [List.mem_cons, List.not_mem_nil, or_false] at hc
      rcases hc with rfl | rfl
      · rw [← h] at hn; dsimp only at hn; exact absurd hn (by decide +kernel)
      · rw [← h] at hn; dsimp only at hn; exact absurd hn (by decide +kernel)
    have := h2 n .integer hns hn
    rw [hnil, List.nil_append] at this
    rw [xHas_values, xGet_values, hval x hx n hne, this]
    refine ⟨?_, ?_⟩
    · intro v hv
      rw [List.head?_map]
      show (((xCellsOf columns k row n).head?).map _).getD _ = _
      rw [hv]
      rfl
    · rw [ne_eq, List.map_eq_nil_iff]
      rfl
  · intro x hx n hn
    have hk : xKind n = some (.char .string) := by
      simp only [List.mem_cons, List.not_mem_nil, or_false] at hn
      rcases hn with rfl | rfl | rfl <;> decide +kernel
    have hne : n ≠ "name".toList := by
      rintro rfl
      exact absurd hn (by decide +kernel)
    have hns : n ≠ "subtype".toList := by
      rintro rfl
      exact absurd hn (by decide +kernel)
    have hnil : xValues [⟨"ID".toList, .one id, .string⟩, ⟨"type".toList, .one (.text typ), .string⟩] n = [] := by
      unfold xValues
      rw [List.map_eq_nil_iff, List.filter_eq_nil_iff]
      intro c hc
      rw [beq_iff_eq]
      intro h
      simp only [List.mem_cons, List.not_mem_nil, or_false] at hc
      rcases hc with rfl | rfl
      · rw [← h] at hn; dsimp only at hn; exact absurd hn (by decide +kernel)
      · rw [← h] at hn; dsimp only at hn; exact absurd hn (by decide +kernel)
    have := h2 n .string hns hk
    rw [hnil, List.nil_append] at this
    rw [xHas_values, xGet_values, hval x hx n hne, this]
    refine ⟨?_, ?_⟩
    · intro v hv
      rw [List.head?_map]
      show (((xCellsOf columns k row n).head?).map _).getD _ = _
      rw [hv]
      rfl
    · rw [ne_eq, List.map_eq_nil_iff]
      rfl
  · intro x hx
    have := h4 [] rfl
    unfold XSubtypes at this
    rw [xHas_values, xGet_values, hval x hx _ (by decide +kernel), this, List.nil_append]
    by_cases hc : xCellsOf columns k row "subtype".toList = []
    · have hc' : xCellsIn k row "subtype".toList columns.zipIdx = [] := hc
      rw [if_pos (by rw [hc']; rfl)]
      exact ⟨fun h => absurd hc h, ⟨fun h => absurd rfl h, fun h => absurd hc h⟩⟩
    · have hc' : xCellsIn k row "subtype".toList columns.zipIdx ≠ [] := hc
      rw [if_neg (by rw [List.map_eq_nil_iff]; exact hc')]
      exact ⟨fun _ => rfl, ⟨fun _ => hc, fun _ => by simp⟩⟩
  · intro x hx
    have hp := h3 "pt".toList (fun dt h => by rw [show xKind "pt".toList = none by decide +kernel] at h; cases h)
    have hh := h3 "hour".toList (fun dt h => by rw [show xKind "hour".toList = none by decide +kernel] at h; cases h)
    constructor
    · rw [← Bool.not_eq_true, xHas_values, hval x hx _ (by decide +kernel), hp]
      exact fun h => h rfl
    · rw [← Bool.not_eq_true, xHas_values, hval x hx _ (by decide +kernel), hh]
      exact fun h => h rfl

/-- the titles are the texts of row 2 up to the first empty cell, in lower case -/
theorem C183_titles : ∀ (row : XRow) (ts : List Tok), xTitles row = .ok ts ↔
    ∃ texts : List Tok, row.takeWhile (·.isSome) = texts.map (fun t => some (.text t)) ∧ ts = texts.map (fun t => xLower (xSpaces t))
  | [], ts => by
      simp only [xTitles, List.takeWhile_nil]
      constructor
      · intro h; injection h with h; exact ⟨[], rfl, h.symm⟩
      · rintro ⟨texts, h, rfl⟩
        have : texts = [] := by simpa using h.symm
        rw [this]; rfl
  | none :: row, ts => by
      simp only [xTitles]
      constructor
      · intro h; injection h with h; exact ⟨[], rfl, h.symm⟩
      · rintro ⟨texts, h, rfl⟩
        have : texts = [] := by simpa using h.symm
        rw [this]; rfl
  | some (.text t) :: row, ts => by
      rw [xTitles, except_bind_ok]
      have ih := C183_titles row
      constructor
      · rintro ⟨l, hl, h⟩
        obtain ⟨texts, h1, rfl⟩ := (ih l).mp hl
        injection h with h
        exact ⟨t :: texts, by simp [h1], h.symm⟩
      · rintro ⟨texts, h, rfl⟩
        cases texts with
        | nil => simp at h
        | cons a texts =>
          simp only [List.takeWhile_cons, Option.isSome_some, if_true, List.map_cons, List.cons.injEq, Option.some.injEq, XCell.text.injEq] at h
          exact ⟨_, (ih _).mpr ⟨texts, h.2, rfl⟩, by rw [List.map_cons, ← h.1]⟩
  | some (.int n) :: row, ts => by
      simp only [xTitles]
      constructor
      · intro h; cases h
      · rintro ⟨texts, h, _⟩
        cases texts <;> simp at h
  | some (.num n) :: row, ts => by
      simp only [xTitles]
      constructor
      · intro h; cases h
      · rintro ⟨texts, h, _⟩
        cases texts <;> simp at h
  | some (.bool n) :: row, ts => by
      simp only [xTitles]
      constructor
      · intro h; cases h
      · rintro ⟨texts, h, _⟩
        cases texts <;> simp at h

/-- a title that is not a text: an AttributeError -/
theorem C183_titleError (row : XRow) (texts : List Tok) (c : XCell) (rest : XRow) (h : row = texts.map (fun t => some (.text t)) ++ some c :: rest)
    (hc : ∀ t, c ≠ .text t) : xTitles row = .error .attribute := by
  subst h
  induction texts with
  | nil =>
    cases c with
    | text t => exact absurd rfl (hc t)
    | int | num | bool => rfl
  | cons t texts ih =>
    rw [List.map_cons, List.cons_append, xTitles]
    simp only [ih]
    rfl

theorem xIdFold : ∀ (ts : List Tok) (i : Nat) (acc : Option Nat),
    (ts.zipIdx i).foldl (fun found p => if p.1 == "id".toList then some p.2 else found) acc
      = ((xIdCol ts).map (· + i)).orElse (fun _ => acc)
  | [], i, acc => rfl
  | t :: ts, i, acc => by
      have h : xIdCol (t :: ts) = ((xIdCol ts).map (· + 1)).orElse (fun _ => if t == "id".toList then some 0 else none) := by
        unfold xIdCol
        rw [List.zipIdx_cons, List.foldl_cons, xIdFold ts _ _]
        rfl
      rw [List.zipIdx_cons, List.foldl_cons, xIdFold ts _ _, h]
      cases xIdCol ts with
      | none =>
        by_cases hb : t == "id".toList
        · simp only [hb, if_true]; simp
        · simp only [hb]; simp
      | some k => simp; omega

/-- the column of the IDs is the last one with this title -/
theorem C183_idColumn : ∀ (ts : List Tok) (k : Nat), xIdCol ts = some k ↔
    ts[k]? = some "id".toList ∧ ∀ j, k < j → ts[j]? ≠ some "id".toList
  | [], k => by simp [xIdCol]
  | t :: ts, k => by
      have h : xIdCol (t :: ts) = ((xIdCol ts).map (· + 1)).orElse (fun _ => if t == "id".toList then some 0 else none) := by
        conv_lhs => unfold xIdCol
        rw [List.zipIdx_cons, List.foldl_cons, xIdFold ts _ _]
      have ih := C183_idColumn ts
      rw [h]
      cases hx : xIdCol ts with
      | some m =>
        obtain ⟨h1, h2⟩ := (ih m).mp hx
        simp only [Option.map_some, Option.orElse_some, Option.some.injEq]
        constructor
        · rintro rfl
          refine ⟨by simpa using h1, ?_⟩
          intro j hj
          cases j with
          | zero => omega
          | succ j => simpa using h2 j (by omega)
        · rintro ⟨h3, h4⟩
          have hk : ¬ k < m + 1 := fun hlt => h4 (m + 1) hlt (by simpa using h1)
          cases k with
          | zero => omega
          | succ k =>
            have : ¬ m < k := fun hlt => h2 k hlt (by simpa using h3)
            omega
      | none =>
        have hno : ∀ j : Nat, ts[j]? ≠ some "id".toList := by
          by_contra hex
          push Not at hex
          obtain ⟨j, hj⟩ := hex
          have hlast : ∃ m : Nat, ts[m]? = some "id".toList ∧ ∀ i, m < i → ts[i]? ≠ some "id".toList := by
            by_contra hcon
            push Not at hcon
            have : ∀ n : Nat, ∃ i, n ≤ i ∧ ts[i]? = some "id".toList := by
              intro n
              induction n with
              | zero => exact ⟨j, by omega, hj⟩
              | succ n ihn =>
                obtain ⟨i, hi, hti⟩ := ihn
                obtain ⟨i', hi', hti'⟩ := hcon i hti
                exact ⟨i', by omega, hti'⟩
            obtain ⟨i, hi, hti⟩ := this ts.length
            rw [List.getElem?_eq_none hi] at hti
            cases hti
          obtain ⟨m, hm1, hm2⟩ := hlast
          rw [(ih m).mpr ⟨hm1, hm2⟩] at hx
          cases hx
        simp only [Option.map_none, Option.orElse_none]
        by_cases hb : t = "id".toList
        · have : (t == "id".toList) = true := by rw [beq_iff_eq]; exact hb
          rw [if_pos this]
          constructor
          · intro he
            injection he with he
            subst he
            refine ⟨by rw [hb]; rfl, ?_⟩
            intro j hj
            cases j with
            | zero => omega
            | succ j => simpa using hno j
          · rintro ⟨h3, _⟩
            cases k with
            | zero => rfl
            | succ k => exact absurd (by simpa using h3) (hno k)
        · have : ¬ (t == "id".toList) = true := by rw [beq_iff_eq]; exact hb
          rw [if_neg this]
          constructor
          · intro he; cases he
          · rintro ⟨h3, _⟩
            cases k with
            | zero =>
              rw [List.getElem?_cons_zero] at h3
              exact absurd (Option.some.inj h3) hb
            | succ k => exact absurd (by simpa using h3) (hno k)

/-- no column of IDs: a ValueError, and nothing is stored -/
theorem C183_noId (str : XCell → Tok) (names : List (Tok × Tok)) (typ : Tok) (sheet : XSheet) (d : XData) (ts : List Tok)
    (hT : xTitles ((sheet[1]?).getD []) = .ok ts) (hno : "id".toList ∉ ts) : xNetwork str names typ sheet d = .error .value := by
  have hk : xIdCol ts = none := by
    cases hc : xIdCol ts with
    | none => rfl
    | some k => exact absurd (List.mem_of_getElem? ((C183_idColumn ts k).mp hc).1) hno
  unfold xNetwork xColumns
  simp only [hT, bind, Except.bind, hk]

theorem xElements_groups (str : XCell → Tok) (typ : Tok) (columns : List (Option Tok)) (k : Nat) : ∀ rows : List XRow,
    ∃ groups : List (List XInfo), xElements str typ columns k rows = groups.flatten ∧
      List.Forall₂ (fun row l => ∃ id, xCell row k = some id ∧ XElementOk str typ columns k row id l)
        (rows.takeWhile (fun row => xTrue (xCell row k))) groups
  | [] => ⟨[], rfl, .nil⟩
  | row :: rows => by
      rw [xElements.eq_def]; dsimp only
      cases hc : xCell row k with
      | none =>
        refine ⟨[], rfl, ?_⟩
        rw [List.takeWhile_cons, hc]
        exact .nil
      | some id =>
        dsimp only
        by_cases ht : xTrue (some id) = true
        · obtain ⟨groups, h1, h2⟩ := xElements_groups str typ columns k rows
          rw [if_pos ht]
          refine ⟨xElement str typ columns k row id :: groups, by rw [h1]; rfl, ?_⟩
          rw [List.takeWhile_cons, hc, if_pos ht]
          exact .cons ⟨id, hc, xElement_ok ..⟩ h2
        · rw [if_neg ht]
          refine ⟨[], rfl, ?_⟩
          rw [List.takeWhile_cons, hc, if_neg ht]
          exact .nil

theorem xStore_lookup (d : XData) (t u : Tok) (l : List XInfo) :
    (xStore d t l).lookup u = if u = t then some l else d.lookup u := by
  unfold xStore
  by_cases ha : d.any (·.1 == t) = true
  · rw [if_pos ha]
    induction d with
    | nil => cases ha
    | cons p d ih =>
      obtain ⟨a, b⟩ := p
      rw [List.map_cons]
      by_cases hat : a = t
      · subst hat
        have hb : (a == a) = true := beq_self_eq_true a
        dsimp only
        rw [if_pos hb]
        by_cases hu : u = a
        · subst hu
          rw [List.lookup_cons_self, if_pos rfl]
        · have hb' : (u == a) = false := by rw [beq_eq_false_iff_ne]; exact hu
          rw [List.lookup_cons, List.lookup_cons, hb', if_neg hu]
          dsimp only
          by_cases ha' : d.any (·.1 == a) = true
          · have := ih ha'
            rw [if_neg hu] at this
            exact this
          · clear ih ha
            congr 1
            induction d with
            | nil => rfl
            | cons q d ih =>
              rw [List.any_cons, Bool.or_eq_true, not_or] at ha'
              rw [List.map_cons, if_neg ha'.1, ih ha'.2]
      · have hb : ¬ (a == t) = true := by rw [beq_iff_eq]; exact hat
        dsimp only
        rw [if_neg hb]
        rw [List.any_cons, Bool.or_eq_true] at ha
        have ha' := ha.resolve_left hb
        by_cases hu : u = a
        · subst hu
          rw [List.lookup_cons_self, List.lookup_cons_self, if_neg hat]
        · have hb' : (u == a) = false := by rw [beq_eq_false_iff_ne]; exact hu
          rw [List.lookup_cons, List.lookup_cons, hb']
          exact ih ha'
  · rw [if_neg ha]
    induction d with
    | nil =>
      rw [List.nil_append, List.lookup_cons]
      by_cases hu : u = t
      · subst hu; simp
      · have hb' : (u == t) = false := by rw [beq_eq_false_iff_ne]; exact hu
        rw [hb', if_neg hu]
    | cons p d ih =>
      obtain ⟨a, b⟩ := p
      rw [List.any_cons, Bool.or_eq_true, not_or] at ha
      have hat : a ≠ t := by
        have := ha.1
        rw [beq_iff_eq] at this
        exact this
      rw [List.cons_append, List.lookup_cons, List.lookup_cons]
      by_cases hu : u = a
      · subst hu
        rw [beq_self_eq_true, if_neg hat]
      · have hb' : (u == a) = false := by rw [beq_eq_false_iff_ne]; exact hu
        rw [hb']
        exact ih ha.2

/-- C183.  A sheet of elements: the rows from row 3 up to the first ID that is empty (or 0, or false) are the elements; each gives one entry for each column of a parameter whose cell is not empty, with the value
of the cell and the characteristics of the element.  The entries take the place of those of an earlier sheet of the same type; the other types are as before. -/
theorem C183_sheet (str : XCell → Tok) (names : List (Tok × Tok)) (typ : Tok) (sheet : XSheet) (d : XData) (ts : List Tok) (k : Nat)
    (hT : xTitles ((sheet[1]?).getD []) = .ok ts) (hk : xIdCol ts = some k) :
    ∃ d' groups, xNetwork str names typ sheet d = .ok d' ∧ d'.lookup typ = some groups.flatten ∧ (∀ u, u ≠ typ → d'.lookup u = d.lookup u) ∧
      List.Forall₂ (fun row l => ∃ id, xCell row k = some id ∧ XElementOk str typ (ts.map (fun t => names.lookup t)) k row id l)
        ((sheet.drop 2).takeWhile (fun row => xTrue (xCell row k))) groups := by
  obtain ⟨groups, h1, h2⟩ := xElements_groups str typ (ts.map (fun t => names.lookup t)) k (sheet.drop 2)
  refine ⟨xStore d typ groups.flatten, groups, ?_, ?_, ?_, h2⟩
  · unfold xNetwork xColumns
    simp only [hT, bind, Except.bind, hk, h1]
  · rw [xStore_lookup, if_pos rfl]
  · intro u hu
    rw [xStore_lookup, if_neg hu]

/-- the columns that are accepted but stored nowhere -/
theorem C183_ignored : ∀ t ∈ ["length".toList, "pieces".toList, "model".toList],
    (∃ n, (xBranchNames.lookup t = some n ∨ xGeneratorNames.lookup t = some n) ∧ xKind n = none) := by
  intro t ht
  simp only [List.mem_cons, List.not_mem_nil, or_false] at ht
  rcases ht with rfl | rfl | rfl
  · exact ⟨"length".toList, Or.inl (by decide +kernel), by decide +kernel⟩
  · exact ⟨"pieces".toList, Or.inr (by decide +kernel), by decide +kernel⟩
  · exact ⟨"model".toList, Or.inr (by decide +kernel), by decide +kernel⟩

/-- all the other accepted columns are stored, as a characteristic or as a parameter -/
theorem C183_stored : ∀ p ∈ xNodeNames ++ xBranchNames ++ xGeneratorNames,
    p.1 ∉ ["length".toList, "pieces".toList, "model".toList] → (xKind p.2).isSome = true := by
  have : (xNodeNames ++ xBranchNames ++ xGeneratorNames).all
      (fun p => decide (p.1 ∈ ["length".toList, "pieces".toList, "model".toList]) || (xKind p.2).isSome) = true := by decide +kernel
  rw [List.all_eq_true] at this
  intro p hp hne
  have := this p hp
  rw [Bool.or_eq_true, decide_eq_true_iff] at this
  exact this.resolve_left hne

/-- an element without a parameter (only characteristics) leaves no trace -/
theorem C183_traceless (str : XCell → Tok) (typ : Tok) (columns : List (Option Tok)) (k : Nat) (row : XRow) (id : XCell) (l : List XInfo)
    (h : XElementOk str typ columns k row id l) (hn : xParamsOf columns k row = []) : l = [] := by
  have := h.params
  rw [hn] at this
  simpa using this

/-- an example: two buses, the second with two subtypes; the third row has ID 0 and ends the sheet -/
def xSheetExample : XSheet :=
  [[some (.text "bus".toList)],
   [some (.text "ID".toList), some (.text "Pd".toList), some (.text "Number".toList), some (.text "Subtype".toList), some (.text "Subtype".toList), some (.text "Qd".toList), some (.text "colour".toList)],
   [some (.text "n1".toList), some (.num (5 / 2)), some (.int 1)],
   [some (.text "n2".toList), some (.int 3), some (.int 2), some (.text "town".toList), some (.text "Big".toList), some (.int 1), some (.text "red".toList)],
   [some (.int 0), some (.int 7)],
   [some (.text "n4".toList), some (.int 7)]]

/-- `str` for texts -/
def xStrExample : XCell → Tok
  | .text t => t
  | _ => "?".toList

theorem C183_witness : ((xNetwork xStrExample xNodeNames "bus".toList xSheetExample []).toOption.map (fun d => (d.lookup "bus".toList).map (fun l => l.map
    (fun x => (x.get "ID".toList, x.get "name".toList, x.value, x.get "subtype".toList)))))
    = some (some [(.one (.text "n1".toList), .one (.text "Pd".toList), .num (5 / 2), .one (.text "N/A".toList)),
        (.one (.text "n2".toList), .one (.text "Pd".toList), .int 3, .many [.text "town".toList, .text "Big".toList]),
        (.one (.text "n2".toList), .one (.text "Qd".toList), .int 1, .many [.text "town".toList, .text "Big".toList])]) := by
  decide +kernel

end Pyensys
