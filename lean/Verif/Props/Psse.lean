import Verif.Model.Psse
import Verif.Props.MatJsonFile

/-!
# C179-C180: reading PSS/E raw files

C179: the transformers: a branch for each transformer with two windings, a star of three branches for each transformer with three windings.
C180: the buses.
-/

namespace Pyensys

/-! ## specification of the file -/

/-- the text is the decimal numeral of `v` with blanks around it -/
def PsText (c : Tok) (v : Rat) : Prop := ∃ (a : Tok) (n : PyNum) (b : Tok), (∀ x ∈ a, isBlank x = true) ∧ (∀ x ∈ b, isBlank x = true) ∧ n.Valid ∧ c = a ++ n.text ++ b ∧ n.value = v

/-- the same for whole numbers without point and exponent -/
def PsWholeText (c : Tok) (v : Int) : Prop :=
  ∃ (a : Tok) (n : PyNum) (b : Tok), (∀ x ∈ a, isBlank x = true) ∧ (∀ x ∈ b, isBlank x = true) ∧ n.Valid ∧ n.Plain ∧ c = a ++ n.text ++ b ∧ n.value = (v : Rat)

/-- field `i` of the line, fields separated by commas, has the property -/
def PsField (line : Tok) (i : Nat) (P : Tok → Prop) : Prop := ∃ cells : List Tok, (∀ c ∈ cells, ',' ∉ c) ∧ line = List.intercalate [','] cells ∧ ∃ c, cells[i]? = some c ∧ P c

/-- field `i` is the number `v` -/
def PsNumber (line : Tok) (i : Nat) (v : Rat) : Prop := PsField line i (fun c => PsText c v)
/-- field `i` is the whole number `v` -/
def PsWhole (line : Tok) (i : Nat) (v : Int) : Prop := PsField line i (fun c => PsWholeText c v)

/-- impedance between two windings: resistance, reactance, base of the winding -/
structure PsZ where
  r : Rat
  x : Rat
  s : Rat
  deriving DecidableEq, Repr

/-- a transformer of the file; `cz` is the code for the units of its impedances -/
inductive PsTrafo
  | two (b1 b2 cz : Int) (z : PsZ)
  | three (b1 b2 b3 cz : Int) (z12 z23 z31 : PsZ)
  deriving DecidableEq, Repr

/-- the three numbers of an impedance at field `i` -/
def PsImp (line : Tok) (i : Nat) (z : PsZ) : Prop := PsNumber line i z.r ∧ PsNumber line (i + 1) z.x ∧ PsNumber line (i + 2) z.s

/-- the lines of a transformer: four or five of them -/
inductive PsLaid : PsTrafo → List Tok → Prop
  | two (b1 b2 cz cw cm : Int) (z : PsZ) (v1 v2 : Rat) (l0 l1 l2 l3 : Tok) : l0.take 3 ≠ "0 /".toList → PsWhole l0 0 b1 → PsWhole l0 1 b2 → PsWhole l0 2 0 → PsWhole l0 4 cw → PsWhole l0 5 cz →
      PsWhole l0 6 cm → PsImp l1 0 z → PsNumber l2 1 v1 → PsNumber l3 1 v2 → PsLaid (.two b1 b2 cz z) [l0, l1, l2, l3]
  | three (b1 b2 b3 cz cw cm : Int) (z12 z23 z31 : PsZ) (v1 v2 v3 : Rat) (l0 l1 l2 l3 l4 : Tok) : l0.take 3 ≠ "0 /".toList → b3 ≠ 0 → PsWhole l0 0 b1 → PsWhole l0 1 b2 → PsWhole l0 2 b3 →
      PsWhole l0 4 cw → PsWhole l0 5 cz → PsWhole l0 6 cm → PsImp l1 0 z12 → PsImp l1 3 z23 → PsImp l1 6 z31 → PsNumber l2 1 v1 → PsNumber l3 1 v2 → PsNumber l4 1 v3 →
      PsLaid (.three b1 b2 b3 cz z12 z23 z31) [l0, l1, l2, l3, l4]

/-! ## specification of the result -/

/-- resistance and reactance on the base of the system: code 1 is this base, code 2 the base of the winding -/
def PsPu (base : Rat) (cz : Int) (z : PsZ) (r x : Rat) : Prop := (cz = 1 ∧ r = z.r ∧ x = z.x) ∨ (cz = 2 ∧ z.s ≠ 0 ∧ r * z.s = z.r * base ∧ x * z.s = z.x * base)

/-- the branch of a transformer with two windings -/
def PsBranch (base : Rat) (b1 b2 cz : Int) (z : PsZ) (row : PsRow) : Prop := row.f = b1 ∧ row.t = b2 ∧ PsPu base cz z row.r row.x

/-- the star of transformer `k` with three windings: between each two of the windings there is the impedance of the file -/
def PsStar (base : Rat) (k : Nat) (b1 b2 b3 cz : Int) (z12 z23 z31 : PsZ) (r1 r2 r3 : PsRow) : Prop :=
  r1.f = b1 ∧ r2.f = b2 ∧ r3.f = b3 ∧ r1.t = 1000000 + (k : Int) ∧ r2.t = r1.t ∧ r3.t = r1.t ∧
    PsPu base cz z12 (r1.r + r2.r) (r1.x + r2.x) ∧ PsPu base cz z23 (r2.r + r3.r) (r2.x + r3.x) ∧ PsPu base cz z31 (r3.r + r1.r) (r3.x + r1.x)

/-- branches of the transformers, those with two windings in `two`, those with three, counted from `k` on, in `three` -/
inductive PsResult (base : Rat) : Nat → List PsTrafo → List PsRow → List PsRow → Prop
  | nil (k) : PsResult base k [] [] []
  | two (k b1 b2 cz z row ts two three) : PsBranch base b1 b2 cz z row → PsResult base k ts two three → PsResult base k (.two b1 b2 cz z :: ts) (row :: two) three
  | three (k b1 b2 b3 cz z12 z23 z31 r1 r2 r3 ts two three) : PsStar base k b1 b2 b3 cz z12 z23 z31 r1 r2 r3 → PsResult base (k + 1) ts two three →
      PsResult base k (.three b1 b2 b3 cz z12 z23 z31 :: ts) two (r1 :: r2 :: r3 :: three)

/-- units 1 or 2, with a base -/
def PsUnits (cz : Int) (zs : List PsZ) : Prop := cz = 1 ∨ (cz = 2 ∧ ∀ z ∈ zs, z.s ≠ 0)

/-- the reactance on the base of the system -/
def psX (base : Rat) (cz : Int) (z : PsZ) : Rat := if cz = 2 then z.x * base / z.s else z.x

/-- transformers that are read as they are: known units, no reactance of a star zero or above a hundred times another one -/
def PsPlain (base : Rat) : PsTrafo → Prop
  | .two _ _ cz z => PsUnits cz [z]
  | .three _ _ _ cz z12 z23 z31 => PsUnits cz [z12, z23, z31] ∧
      (∀ z ∈ [z12, z23, z31], 0 < psX base cz z ∧ ∀ z' ∈ [z12, z23, z31], psX base cz z ≤ 100 * psX base cz z')

/-! ## numbers -/

theorem psSplit_append (c : Tok) (hc : ',' ∉ c) (r : Tok) : psSplit (c ++ ',' :: r) = c :: psSplit r := by
  induction c with
  | nil => simp [psSplit]
  | cons a c ih =>
    have h1 : a ≠ ',' := fun e => hc (by simp [e])
    have h2 := ih (fun h => hc (List.mem_cons_of_mem _ h))
    rw [List.cons_append, psSplit, if_neg h1, h2]

theorem psSplit_last (c : Tok) (hc : ',' ∉ c) : psSplit c = [c] := by
  induction c with
  | nil => rfl
  | cons a c ih =>
    have h1 : a ≠ ',' := fun e => hc (by simp [e])
    have h2 := ih (fun h => hc (List.mem_cons_of_mem _ h))
    rw [psSplit, if_neg h1, h2]

theorem psSplit_join (cells : List Tok) (hne : cells ≠ []) (hc : ∀ c ∈ cells, ',' ∉ c) : psSplit (List.intercalate [','] cells) = cells := by
  induction cells with
  | nil => exact absurd rfl hne
  | cons c cs ih =>
    cases cs with
    | nil =>
      have : List.intercalate [','] [c] = c := by simp [List.intercalate]
      rw [this, psSplit_last c (hc c (by simp))]
    | cons c' cs =>
      have : List.intercalate [','] (c :: c' :: cs) = c ++ ',' :: List.intercalate [','] (c' :: cs) := by simp [List.intercalate, List.intersperse]
      rw [this, psSplit_append c (hc c (by simp)), ih (by simp) (fun x hx => hc x (List.mem_cons_of_mem _ hx))]

theorem psField_split {line : Tok} {i : Nat} {P : Tok → Prop} (h : PsField line i P) : ∃ c, (psSplit line)[i]? = some c ∧ P c := by
  obtain ⟨cells, hc, rfl, c, hi, hp⟩ := h
  refine ⟨c, ?_, hp⟩
  rw [psSplit_join cells _ hc]
  · exact hi
  · rintro rfl; simp at hi

theorem psStrip_text (a b t : Tok) (ha : ∀ x ∈ a, isBlank x = true) (hb : ∀ x ∈ b, isBlank x = true) (ht : ∀ x ∈ t, isBlank x = false) (hne : t ≠ []) : psStrip (a ++ t ++ b) = t := by
  have drop : ∀ (p t' : Tok), (∀ x ∈ p, isBlank x = true) → (∀ x ∈ t'.head?, isBlank x = false) → (p ++ t').dropWhile isBlank = t' := by
    intro p t' hp ht'
    induction p with
    | nil =>
      cases t' with
      | nil => rfl
      | cons x t' =>
        have := ht' x (by simp)
        simp [this]
    | cons x p ih =>
      rw [List.cons_append, List.dropWhile_cons, if_pos (hp x (by simp))]
      exact ih (fun y hy => hp y (List.mem_cons_of_mem _ hy))
  unfold psStrip
  rw [List.append_assoc, drop a (t ++ b) ha]
  · rw [List.reverse_append, drop b.reverse t.reverse (fun x hx => hb x (by simpa using hx))]
    · simp
    · intro x hx
      have : x ∈ t.reverse := List.mem_of_mem_head? hx
      exact ht x (by simpa using this)
  · intro x hx
    cases t with
    | nil => exact absurd rfl hne
    | cons y t =>
      simp only [List.cons_append, List.head?_cons, Option.mem_def, Option.some.injEq] at hx
      subst hx
      exact ht y (by simp)

theorem digitChar_notBlank : ∀ d : Fin 10, isBlank (digitChar d) = false := by decide

theorem signText_notBlank (s : Option Bool) : ∀ x ∈ PyNum.signText s, isBlank x = false := by
  rcases s with _ | _ | _ <;> intro x hx
  · cases hx
  · rw [List.mem_singleton.1 hx]; decide
  · rw [List.mem_singleton.1 hx]; decide

theorem pyNum_notBlank (n : PyNum) : ∀ x ∈ n.text, isBlank x = false := by
  intro x hx
  unfold PyNum.text at hx
  rcases List.mem_append.1 hx with h | h
  · exact signText_notBlank _ x h
  rcases List.mem_append.1 h with h | h
  · rcases mantissa_chars n x h with rfl | ⟨d, rfl⟩
    · decide
    · exact digitChar_notBlank d
  · rcases he : n.exp with _ | ⟨cap, s, k⟩
    · rw [he] at h; cases h
    · rw [he] at h
      unfold PyNum.expText at h
      rcases List.mem_cons.1 h with rfl | h
      · cases cap <;> decide
      rcases List.mem_append.1 h with h | h
      · exact signText_notBlank _ x h
      · obtain ⟨d, _, rfl⟩ := List.mem_map.1 h
        exact digitChar_notBlank d

theorem pyNum_ne_nil (n : PyNum) (h : n.Valid) : n.text ≠ [] := by
  intro e
  unfold PyNum.text at e
  have e1 := (List.append_eq_nil_iff.1 e).2
  have e2 := (List.append_eq_nil_iff.1 e1).1
  unfold PyNum.mantissaText at e2
  have e3 := List.append_eq_nil_iff.1 e2
  have hi : n.int = [] := by simpa using e3.1
  cases hp : n.point with
  | true => rw [hp] at e3; simp at e3
  | false => exact h.digits (by rw [hi, h.frac hp]; rfl)

theorem psFloat_of {line : Tok} {i : Nat} {v : Rat} (h : PsNumber line i v) : psFloat line i = .ok v := by
  obtain ⟨c, hc, a, n, b, ha, hb, hv, rfl, rfl⟩ := psField_split h
  unfold psFloat
  rw [hc]
  dsimp only
  rw [psStrip_text a b n.text ha hb (pyNum_notBlank n) (pyNum_ne_nil n hv), C156_numeral n hv]

theorem psInt_of {line : Tok} {i : Nat} {v : Int} (h : PsWhole line i v) : psInt line i = .ok v := by
  obtain ⟨c, hc, a, n, b, ha, hb, hv, hp, rfl, hval⟩ := psField_split h
  obtain ⟨z, hz, hz'⟩ := plain_int n hv hp
  unfold psInt
  rw [hc]
  dsimp only
  rw [psStrip_text a b n.text ha hb (pyNum_notBlank n) (pyNum_ne_nil n hv), hz]
  congr 1
  exact_mod_cast hz'.symm.trans hval

/-! ## transformers -/

/-- resistance on the base of the system -/
def psR (base : Rat) (cz : Int) (z : PsZ) : Rat := if cz = 2 then z.r * base / z.s else z.r

theorem psConvert_of (base : Rat) (sqrt : Rat → Rat) (cz : Int) (z : PsZ) (h : cz = 1 ∨ (cz = 2 ∧ z.s ≠ 0)) :
    psConvert base sqrt cz z.r z.x z.s = .ok (psR base cz z, psX base cz z) := by
  rcases h with rfl | ⟨rfl, hs⟩
  · rfl
  · unfold psConvert psR psX
    rw [if_pos rfl, if_pos rfl, if_pos rfl]
    by_cases hb : z.s = base
    · rw [if_neg (not_not.2 hb), ← hb, mul_div_assoc, mul_div_assoc, div_self hs, mul_one, mul_one]
    · rw [if_pos hb, if_neg hs, mul_div_assoc, mul_div_assoc]

theorem psPu_of (base : Rat) (cz : Int) (z : PsZ) (h : cz = 1 ∨ (cz = 2 ∧ z.s ≠ 0)) : PsPu base cz z (psR base cz z) (psX base cz z) := by
  rcases h with rfl | ⟨rfl, hs⟩
  · exact Or.inl ⟨rfl, rfl, rfl⟩
  · refine Or.inr ⟨rfl, hs, ?_, ?_⟩ <;> simp only [psR, psX, if_true] <;> exact div_mul_cancel₀ _ hs

theorem psUnits_each {cz : Int} {zs : List PsZ} (h : PsUnits cz zs) (z : PsZ) (hz : z ∈ zs) : cz = 1 ∨ (cz = 2 ∧ z.s ≠ 0) := by
  rcases h with h | ⟨h, h'⟩
  · exact Or.inl h
  · exact Or.inr ⟨h, h' z hz⟩

theorem psTwo_of (base : Rat) (sqrt : Rat → Rat) (b1 b2 cz cw cm : Int) (z : PsZ) (v1 v2 : Rat) (l0 l1 l2 l3 : Tok) (h1 : PsWhole l0 0 b1) (h2 : PsWhole l0 1 b2) (h4 : PsWhole l0 4 cw)
    (h5 : PsWhole l0 5 cz) (h6 : PsWhole l0 6 cm) (hz : PsImp l1 0 z) (hv1 : PsNumber l2 1 v1) (hv2 : PsNumber l3 1 v2) (hu : PsUnits cz [z]) :
    psTwo base sqrt l0 l1 l2 l3 = .ok ⟨b1, b2, psR base cz z, psX base cz z⟩ := by
  obtain ⟨z1, z2, z3⟩ := hz
  unfold psTwo
  simp only [psInt_of h1, psInt_of h2, psInt_of h4, psInt_of h5, psInt_of h6, psFloat_of z1, psFloat_of z2, psFloat_of z3, psFloat_of hv1, psFloat_of hv2, bind, Except.bind,
    psConvert_of base sqrt cz z (psUnits_each hu z (by simp))]

theorem psCap_of (x m : Rat) (hm : 0 < m) (h : x ≤ 100 * m) : psCap x m = .ok x := by
  unfold psCap
  rw [if_neg hm.ne', if_neg]
  rw [not_lt, div_le_iff₀ hm]
  exact h

theorem psThree_of (base : Rat) (sqrt : Rat → Rat) (k : Nat) (b1 b2 b3 cz cw cm : Int) (z12 z23 z31 : PsZ) (v1 v2 v3 : Rat) (l0 l1 l2 l3 l4 : Tok) (h1 : PsWhole l0 0 b1) (h2 : PsWhole l0 1 b2)
    (h3 : PsWhole l0 2 b3) (h4 : PsWhole l0 4 cw) (h5 : PsWhole l0 5 cz) (h6 : PsWhole l0 6 cm) (ha : PsImp l1 0 z12) (hb : PsImp l1 3 z23) (hc : PsImp l1 6 z31) (hv1 : PsNumber l2 1 v1)
    (hv2 : PsNumber l3 1 v2) (hv3 : PsNumber l4 1 v3) (hp : PsPlain base (.three b1 b2 b3 cz z12 z23 z31)) :
    ∃ rows, psThree base sqrt k l0 l1 l2 l3 l4 = .ok rows ∧ PsStar base (k + 1) b1 b2 b3 cz z12 z23 z31 rows.1 rows.2.1 rows.2.2 := by
  obtain ⟨hu, hx⟩ := hp
  obtain ⟨a1, a2, a3⟩ := ha
  obtain ⟨c1, c2, c3⟩ := hb
  obtain ⟨d1, d2, d3⟩ := hc
  have u12 := psUnits_each hu z12 (by simp)
  have u23 := psUnits_each hu z23 (by simp)
  have u31 := psUnits_each hu z31 (by simp)
  obtain ⟨p12, q12⟩ := hx z12 (by simp)
  obtain ⟨p23, q23⟩ := hx z23 (by simp)
  obtain ⟨p31, q31⟩ := hx z31 (by simp)
  have hm : 0 < min (psX base cz z12) (min (psX base cz z23) (psX base cz z31)) := lt_min p12 (lt_min p23 p31)
  have hle : ∀ z ∈ [z12, z23, z31], psX base cz z ≤ 100 * min (psX base cz z12) (min (psX base cz z23) (psX base cz z31)) := by
    intro z hz
    rcases min_choice (psX base cz z12) (min (psX base cz z23) (psX base cz z31)) with e | e
    · rw [e]; exact (hx z hz).2 z12 (by simp)
    · rw [e]
      rcases min_choice (psX base cz z23) (psX base cz z31) with e | e
      · rw [e]; exact (hx z hz).2 z23 (by simp)
      · rw [e]; exact (hx z hz).2 z31 (by simp)
  refine ⟨(⟨b1, 1000000 + ((k : Int) + 1), 1 / 2 * (psR base cz z12 + psR base cz z31 - psR base cz z23), 1 / 2 * (psX base cz z12 + psX base cz z31 - psX base cz z23)⟩,
    ⟨b2, 1000000 + ((k : Int) + 1), 1 / 2 * (psR base cz z12 + psR base cz z23 - psR base cz z31), 1 / 2 * (psX base cz z12 + psX base cz z23 - psX base cz z31)⟩,
    ⟨b3, 1000000 + ((k : Int) + 1), 1 / 2 * (psR base cz z31 + psR base cz z23 - psR base cz z12), 1 / 2 * (psX base cz z31 + psX base cz z23 - psX base cz z12)⟩), ?_, ?_⟩
  · unfold psThree
    simp only [psInt_of h1, psInt_of h2, psInt_of h3, psInt_of h4, psInt_of h5, psInt_of h6, psFloat_of a1, psFloat_of a2, psFloat_of a3, psFloat_of c1, psFloat_of c2, psFloat_of c3, psFloat_of d1,
      psFloat_of d2, psFloat_of d3, psFloat_of hv1, psFloat_of hv2, psFloat_of hv3, bind, Except.bind, psConvert_of base sqrt cz z12 u12, psConvert_of base sqrt cz z23 u23,
      psConvert_of base sqrt cz z31 u31, psCap_of _ _ hm (hle z12 (by simp)), psCap_of _ _ hm (hle z23 (by simp)), psCap_of _ _ hm (hle z31 (by simp))]
  · refine ⟨rfl, rfl, rfl, by push_cast; rfl, rfl, rfl, ?_, ?_, ?_⟩
    · convert psPu_of base cz z12 u12 using 1 <;> ring
    · convert psPu_of base cz z23 u23 using 1 <;> ring
    · convert psPu_of base cz z31 u31 using 1 <;> ring

/-- what the tables look like after new rows -/
def psMerge (n : Nat) (old new : List PsRow) : List PsRow :=
  if n = 0 then
    match new with
    | [] => old
    | r :: rs => old.set 0 r ++ rs
  else old ++ new

theorem psLoop_end (base : Rat) (sqrt : Rat → Rat) (e : Tok) (tail : List Tok) (s : PsState) (he : e.take 3 = "0 /".toList) : psTrafoLoop base sqrt (e :: tail) s = .ok s := by
  have h : psEnds e = true := by unfold psEnds; rw [beq_iff_eq]; exact he
  rcases tail with _ | ⟨a, _ | ⟨b, _ | ⟨c, tail⟩⟩⟩ <;> rw [psTrafoLoop.eq_def] <;> dsimp only <;> rw [if_pos h]

theorem psEnds_not {l : Tok} (h : l.take 3 ≠ "0 /".toList) : psEnds l = false := by
  unfold psEnds
  rw [beq_eq_false_iff_ne]
  exact h

theorem psLoop_ok (base : Rat) (sqrt : Rat → Rat) (e : Tok) (tail : List Tok) (he : e.take 3 = "0 /".toList) (recs : List PsTrafo) (blocks : List (List Tok))
    (hl : List.Forall₂ PsLaid recs blocks) (hp : ∀ t ∈ recs, PsPlain base t) (s : PsState) :
    ∃ two three, PsResult base (s.nThree + 1) recs two three ∧ 
      ∃ n m, psTrafoLoop base sqrt (blocks.flatten ++ e :: tail) s = .ok ⟨n, m, psMerge s.nTwo s.two two, psMerge s.nThree s.three three⟩ := by
  induction hl generalizing s with
  | nil =>
    refine ⟨[], [], .nil _, s.nTwo, s.nThree, ?_⟩
    rw [List.flatten_nil, List.nil_append, psLoop_end base sqrt e tail s he]
    unfold psMerge
    simp
  | cons h _ ih =>
    rename_i t bl ts bls _
    have hp' : ∀ t ∈ ts, PsPlain base t := fun x hx => hp x (List.mem_cons_of_mem _ hx)
    have hpt := hp t (by simp)
    cases h with
    | two b1 b2 cz cw cm z v1 v2 l0 l1 l2 l3 hn h1 h2 h3 h4 h5 h6 hz hv1 hv2 =>
      have hrow := psTwo_of base sqrt b1 b2 cz cw cm z v1 v2 l0 l1 l2 l3 h1 h2 h4 h5 h6 hz hv1 hv2 hpt
      obtain ⟨two, three, hr, n, m, hrun⟩ := ih hp' (psAddTwo s ⟨b1, b2, psR base cz z, psX base cz z⟩)
      refine ⟨⟨b1, b2, psR base cz z, psX base cz z⟩ :: two, three, .two _ _ _ _ _ _ _ _ _ ⟨rfl, rfl, psPu_of base cz z (psUnits_each hpt z (by simp))⟩ hr, n, m, ?_⟩
      · show psTrafoLoop base sqrt (l0 :: l1 :: l2 :: l3 :: (bls.flatten ++ e :: tail)) s = _
        rw [psTrafoLoop.eq_def]
        dsimp only
        rw [psEnds_not hn, if_neg (by simp)]
        simp only [psInt_of h3, bind, Except.bind, if_true, hrow]
        rw [hrun]
        unfold psAddTwo psMerge
        dsimp only
        rw [if_neg (Nat.succ_ne_zero _)]
        by_cases h0 : s.nTwo = 0
        · simp [h0]
        · simp [h0]
    | three b1 b2 b3 cz cw cm z12 z23 z31 v1 v2 v3 l0 l1 l2 l3 l4 hn hb h1 h2 h3 h4 h5 h6 ha hb' hc hv1 hv2 hv3 =>
      obtain ⟨rows, hrow, hstar⟩ := psThree_of base sqrt s.nThree b1 b2 b3 cz cw cm z12 z23 z31 v1 v2 v3 l0 l1 l2 l3 l4 h1 h2 h3 h4 h5 h6 ha hb' hc hv1 hv2 hv3 hpt
      obtain ⟨two, three, hr, n, m, hrun⟩ := ih hp' (psAddThree s rows.1 rows.2.1 rows.2.2)
      refine ⟨two, rows.1 :: rows.2.1 :: rows.2.2 :: three, .three _ _ _ _ _ _ _ _ _ _ _ _ _ _ hstar hr, n, m, ?_⟩
      · show psTrafoLoop base sqrt (l0 :: l1 :: l2 :: l3 :: l4 :: (bls.flatten ++ e :: tail)) s = _
        rw [psTrafoLoop, psEnds_not hn, if_neg (by simp)]
        simp only [psInt_of h3, bind, Except.bind, if_neg hb, hrow]
        rw [hrun]
        unfold psAddThree psMerge
        dsimp only
        rw [if_neg (Nat.succ_ne_zero s.nThree)]
        by_cases h0 : s.nThree = 0
        · simp [h0]
        · simp [h0]

/-- has it two windings -/
def PsTrafo.IsTwo : PsTrafo → Prop
  | .two .. => True
  | .three .. => False

theorem psMerge_junk (junk : PsRow) (new : List PsRow) (h : new ≠ []) : psMerge 0 [junk] new = new := by
  cases new with
  | nil => exact absurd rfl h
  | cons a as => rfl

theorem psResult_two (base : Rat) (k : Nat) (recs : List PsTrafo) (two three : List PsRow) (h : PsResult base k recs two three) :
    (two ≠ [] ↔ ∃ t ∈ recs, t.IsTwo) ∧ (three ≠ [] ↔ ∃ t ∈ recs, ¬ t.IsTwo) := by
  induction h with
  | nil => simp
  | two k b1 b2 cz z row ts two three hb hr ih => simp [PsTrafo.IsTwo, ih.2]
  | three k b1 b2 b3 cz z12 z23 z31 r1 r2 r3 ts two three hb hr ih => simp [PsTrafo.IsTwo, ih.1]

/-- C179: the transformers of the file, from its line 14554 on, become branches: one for two windings, a star for three windings -/
theorem C179_transformers_partial (junk : PsRow) (sqrt : Rat → Rat) (base : Rat) (head : List Tok) (hhead : head.length = 14553) (recs : List PsTrafo) (blocks : List (List Tok))
    (hl : List.Forall₂ PsLaid recs blocks) (hp : ∀ t ∈ recs, PsPlain base t) (e : Tok) (he : e.take 3 = "0 /".toList) (tail : List Tok) (h2 : ∃ t ∈ recs, t.IsTwo) (h3 : ∃ t ∈ recs, ¬ t.IsTwo) :
    ∃ s, psTrafos junk sqrt base (head ++ (blocks.flatten ++ e :: tail)) = .ok s ∧ PsResult base 1 recs s.two s.three := by
  obtain ⟨two, three, hr, n, m, hrun⟩ := psLoop_ok base sqrt e tail he recs blocks hl hp ⟨0, 0, [junk], [junk]⟩
  have hk := psResult_two base _ recs two three hr
  refine ⟨⟨n, m, psMerge 0 [junk] two, psMerge 0 [junk] three⟩, ?_, ?_⟩
  · unfold psTrafos
    rw [List.drop_left' hhead]
    exact hrun
  · dsimp only
    rw [psMerge_junk junk two (hk.1.2 h2), psMerge_junk junk three (hk.2.2 h3)]
    exact hr

/-- C179: if a file has no transformer of one kind, a branch of arbitrary numbers takes its place in the result -/
theorem C179_junk_violated (junk : PsRow) (sqrt : Rat → Rat) (base : Rat) (head : List Tok) (hhead : head.length = 14553) (recs : List PsTrafo) (blocks : List (List Tok))
    (hl : List.Forall₂ PsLaid recs blocks) (hp : ∀ t ∈ recs, PsPlain base t) (e : Tok) (he : e.take 3 = "0 /".toList) (tail : List Tok) :
    ∃ s, psTrafos junk sqrt base (head ++ (blocks.flatten ++ e :: tail)) = .ok s ∧ ((∀ t ∈ recs, ¬ t.IsTwo) → s.two = [junk]) ∧ ((∀ t ∈ recs, t.IsTwo) → s.three = [junk]) := by
  obtain ⟨two, three, hr, n, m, hrun⟩ := psLoop_ok base sqrt e tail he recs blocks hl hp ⟨0, 0, [junk], [junk]⟩
  have hk := psResult_two base _ recs two three hr
  refine ⟨⟨n, m, psMerge 0 [junk] two, psMerge 0 [junk] three⟩, ?_, ?_, ?_⟩
  · unfold psTrafos
    rw [List.drop_left' hhead]
    exact hrun
  · intro h
    have : two = [] := by
      by_contra hne
      obtain ⟨t, ht, ht'⟩ := hk.1.1 hne
      exact h t ht ht'
    rw [this]; rfl
  · intro h
    have : three = [] := by
      by_contra hne
      obtain ⟨t, ht, ht'⟩ := hk.2.1 hne
      exact ht' (h t ht)
    rw [this]; rfl

/-- C179: the place of the transformers is fixed: shorter files cannot be read at all -/
theorem C179_short_violated (junk : PsRow) (sqrt : Rat → Rat) (base : Rat) (lines : List Tok) (h : lines.length ≤ 14553) : psTrafos junk sqrt base lines = .error .index := by
  unfold psTrafos
  rw [List.drop_eq_nil_of_le h]
  rfl

theorem psLoop_prefix (base : Rat) (sqrt : Rat → Rat) (n : Nat) : ∀ (ls : List Tok), ls.length ≤ n → ∀ (s s' : PsState), psTrafoLoop base sqrt ls s = .ok s' →
    (s.nTwo ≠ 0 → s.two <+: s'.two) ∧ (s.nThree ≠ 0 → s.three <+: s'.three) := by
  induction n with
  | zero =>
    intro ls hls s s' h
    have : ls = [] := List.length_eq_zero_iff.1 (by omega)
    subst this
    cases h
  | succ n ih =>
    intro ls hls s s' h
    have same : s = s' → (s.nTwo ≠ 0 → s.two <+: s'.two) ∧ (s.nThree ≠ 0 → s.three <+: s'.three) := by
      rintro rfl
      exact ⟨fun _ => List.prefix_rfl, fun _ => List.prefix_rfl⟩
    rcases ls with _ | ⟨a, _ | ⟨b, _ | ⟨c, _ | ⟨d, ls⟩⟩⟩⟩
    · cases h
    · rw [psTrafoLoop] at h
      split at h
      · cases h; exact same rfl
      · cases h
    · rw [psTrafoLoop] at h
      split at h
      · cases h; exact same rfl
      · cases h
    · rw [psTrafoLoop] at h
      split at h
      · cases h; exact same rfl
      · cases h
    · rw [psTrafoLoop.eq_def] at h
      dsimp only at h
      split at h
      · cases h; exact same rfl
      rw [except_bind_ok] at h
      obtain ⟨k, -, h⟩ := h
      split at h
      · rw [except_bind_ok] at h
        obtain ⟨row, -, h⟩ := h
        obtain ⟨h1, h2⟩ := ih ls (by simp only [List.length_cons] at hls; omega) _ _ h
        refine ⟨fun h0 => ?_, h2⟩
        refine List.IsPrefix.trans ?_ (h1 (Nat.succ_ne_zero _))
        show s.two <+: if s.nTwo = 0 then s.two.set 0 row else s.two ++ [row]
        rw [if_neg h0]
        exact List.prefix_append _ _
      · split at h
        · cases h
        · rename_i l4 ls
          rw [except_bind_ok] at h
          obtain ⟨rows, -, h⟩ := h
          obtain ⟨h1, h2⟩ := ih ls (by simp only [List.length_cons] at hls; omega) _ _ h
          refine ⟨h1, fun h0 => ?_⟩
          refine List.IsPrefix.trans ?_ (h2 (Nat.succ_ne_zero _))
          show s.three <+: (if s.nThree = 0 then s.three.set 0 rows.1 else s.three ++ [rows.1]) ++ [rows.2.1, rows.2.2]
          rw [if_neg h0, List.append_assoc]
          exact List.prefix_append _ _

/-- C179: losses in watts (code 3) are divided by the base of the system, not by the base of the transformer: the resistance of the first branch is wrong unless the two are equal -/
theorem C179_watts_violated (junk : PsRow) (sqrt : Rat → Rat) (base : Rat) (hbase : 0 < base) (head : List Tok) (hhead : head.length = 14553) (b1 b2 : Int) (z : PsZ) (hs : 0 < z.s) (hr : z.r ≠ 0)
    (blk : List Tok) (hl : PsLaid (.two b1 b2 3 z) blk) (rest : List Tok) (s : PsState) (h : psTrafos junk sqrt base (head ++ (blk ++ rest)) = .ok s) :
    ∃ row, s.two[0]? = some row ∧ (row.r = z.r / (z.s * 1000000) * (base / z.s) ↔ z.s = base) := by
  unfold psTrafos at h
  rw [List.drop_left' hhead] at h
  cases hl with
  | two b1 b2 cz cw cm z v1 v2 l0 l1 l2 l3 hn h1 h2 h3 h4 h5 h6 hz hv1 hv2 =>
    rw [show [l0, l1, l2, l3] ++ rest = l0 :: l1 :: l2 :: l3 :: rest from rfl, psTrafoLoop.eq_def] at h
    dsimp only at h
    rw [psEnds_not hn, if_neg (by simp)] at h
    obtain ⟨z1, z2, z3⟩ := hz
    have hc : psConvert base sqrt 3 z.r z.x z.s = if z.x ^ 2 - (z.r / (base * 1000000)) ^ 2 < 0 then .error .value
        else .ok (z.r / (base * 1000000), sqrt (z.x ^ 2 - (z.r / (base * 1000000)) ^ 2)) := by
      unfold psConvert
      rw [if_neg (by decide), if_pos rfl, if_neg hbase.ne']
    have hrow : psTwo base sqrt l0 l1 l2 l3 = (if z.x ^ 2 - (z.r / (base * 1000000)) ^ 2 < 0 then .error .value
        else .ok ⟨b1, b2, z.r / (base * 1000000), sqrt (z.x ^ 2 - (z.r / (base * 1000000)) ^ 2)⟩) := by
      unfold psTwo
      simp only [psInt_of h1, psInt_of h2, psInt_of h4, psInt_of h5, psInt_of h6, psFloat_of z1, psFloat_of z2, psFloat_of z3, psFloat_of hv1, psFloat_of hv2, bind, Except.bind, hc]
      by_cases hneg : z.x ^ 2 - (z.r / (base * 1000000)) ^ 2 < 0
      · rw [if_pos hneg, if_pos hneg]
      · rw [if_neg hneg, if_neg hneg]
    simp only [psInt_of h3, bind, Except.bind, if_true, hrow] at h
    split at h
    · cases h
    rename_i heq
    split at heq
    · cases heq
    cases heq
    have hpre := (psLoop_prefix base sqrt rest.length rest le_rfl _ _ h).1 (Nat.succ_ne_zero _)
    obtain ⟨t, ht⟩ := hpre
    refine ⟨⟨b1, b2, z.r / (base * 1000000), sqrt (z.x ^ 2 - (z.r / (base * 1000000)) ^ 2)⟩, ?_, ?_⟩
    · rw [← ht]; rfl
    · dsimp only
      have hs' := hs.ne'
      have hb' := hbase.ne'
      constructor
      · intro e
        field_simp at e
        have e' : z.s ^ 2 = base ^ 2 := by linarith
        nlinarith [sq_nonneg (z.s - base), mul_pos hs hbase]
      · rintro rfl
        field_simp

theorem psCap_min (x m : Rat) (hm : 0 < m) : psCap x m = .ok (min x (100 * m)) := by
  by_cases h : x ≤ 100 * m
  · rw [psCap_of x m hm h, min_eq_left h]
  · unfold psCap
    rw [if_neg hm.ne', if_pos, min_eq_right (le_of_not_ge h)]
    rw [lt_div_iff₀ hm]
    exact lt_of_not_ge h

theorem psPu_x (base : Rat) (cz : Int) (z : PsZ) (r x : Rat) (h : PsPu base cz z r x) : x = psX base cz z := by
  rcases h with ⟨rfl, -, h⟩ | ⟨rfl, hs, -, h⟩
  · exact h
  · unfold psX
    rw [if_pos rfl, eq_div_iff hs]
    exact h

/-- C179: large reactances are cut: the first star does not have the impedances of the file if one of its reactances is above a hundred times another one -/
theorem C179_cut_violated (junk : PsRow) (sqrt : Rat → Rat) (base : Rat) (head : List Tok) (hhead : head.length = 14553) (b1 b2 b3 cz : Int) (z12 z23 z31 : PsZ) (hu : PsUnits cz [z12, z23, z31])
    (hpos : ∀ z ∈ [z12, z23, z31], 0 < psX base cz z) (hbig : ∃ z ∈ [z12, z23, z31], ∃ z' ∈ [z12, z23, z31], 100 * psX base cz z' < psX base cz z) (blk : List Tok)
    (hl : PsLaid (.three b1 b2 b3 cz z12 z23 z31) blk) (rest : List Tok) (s : PsState) (h : psTrafos junk sqrt base (head ++ (blk ++ rest)) = .ok s) :
    ∃ r1 r2 r3 more, s.three = r1 :: r2 :: r3 :: more ∧ ∀ k, ¬ PsStar base k b1 b2 b3 cz z12 z23 z31 r1 r2 r3 := by
  unfold psTrafos at h
  rw [List.drop_left' hhead] at h
  cases hl with
  | three b1 b2 b3 cz cw cm z12 z23 z31 v1 v2 v3 l0 l1 l2 l3 l4 hn hb h1 h2 h3 h4 h5 h6 ha hb' hc hv1 hv2 hv3 =>
    rw [show [l0, l1, l2, l3, l4] ++ rest = l0 :: l1 :: l2 :: l3 :: l4 :: rest from rfl, psTrafoLoop.eq_def] at h
    dsimp only at h
    rw [psEnds_not hn, if_neg (by simp)] at h
    have u12 := psUnits_each hu z12 (by simp)
    have u23 := psUnits_each hu z23 (by simp)
    have u31 := psUnits_each hu z31 (by simp)
    obtain ⟨a1, a2, a3⟩ := ha
    obtain ⟨c1, c2, c3⟩ := hb'
    obtain ⟨d1, d2, d3⟩ := hc
    have hm : 0 < min (psX base cz z12) (min (psX base cz z23) (psX base cz z31)) := lt_min (hpos z12 (by simp)) (lt_min (hpos z23 (by simp)) (hpos z31 (by simp)))
    obtain ⟨m, hmdef⟩ : ∃ m, m = min (psX base cz z12) (min (psX base cz z23) (psX base cz z31)) := ⟨_, rfl⟩
    have hrow : psThree base sqrt 0 l0 l1 l2 l3 l4 = .ok (⟨b1, 1000000 + (((0 : Nat) : Int) + 1), 1 / 2 * (psR base cz z12 + psR base cz z31 - psR base cz z23),
          1 / 2 * (min (psX base cz z12) (100 * m) + min (psX base cz z31) (100 * m) - min (psX base cz z23) (100 * m))⟩,
        ⟨b2, 1000000 + (((0 : Nat) : Int) + 1), 1 / 2 * (psR base cz z12 + psR base cz z23 - psR base cz z31),
          1 / 2 * (min (psX base cz z12) (100 * m) + min (psX base cz z23) (100 * m) - min (psX base cz z31) (100 * m))⟩,
        ⟨b3, 1000000 + (((0 : Nat) : Int) + 1), 1 / 2 * (psR base cz z31 + psR base cz z23 - psR base cz z12),
          1 / 2 * (min (psX base cz z31) (100 * m) + min (psX base cz z23) (100 * m) - min (psX base cz z12) (100 * m))⟩) := by
      unfold psThree
      simp only [psInt_of h1, psInt_of h2, psInt_of h3, psInt_of h4, psInt_of h5, psInt_of h6, psFloat_of a1, psFloat_of a2, psFloat_of a3, psFloat_of c1, psFloat_of c2, psFloat_of c3, psFloat_of d1,
        psFloat_of d2, psFloat_of d3, psFloat_of hv1, psFloat_of hv2, psFloat_of hv3, bind, Except.bind, psConvert_of base sqrt cz z12 u12, psConvert_of base sqrt cz z23 u23,
        psConvert_of base sqrt cz z31 u31, psCap_min _ _ hm]
      rw [← hmdef]
    simp only [psInt_of h3, bind, Except.bind, if_neg hb, hrow] at h
    have hpre := (psLoop_prefix base sqrt rest.length rest le_rfl _ _ h).2 (Nat.succ_ne_zero _)
    obtain ⟨t, ht⟩ := hpre
    refine ⟨_, _, _, t, ht.symm, ?_⟩
    rintro k ⟨-, -, -, -, -, -, q12, q23, q31⟩
    have e12 := psPu_x _ _ _ _ _ q12
    have e23 := psPu_x _ _ _ _ _ q23
    have e31 := psPu_x _ _ _ _ _ q31
    dsimp only at e12 e23 e31
    have k12 : min (psX base cz z12) (100 * m) = psX base cz z12 := by linarith
    have k23 : min (psX base cz z23) (100 * m) = psX base cz z23 := by linarith
    have k31 : min (psX base cz z31) (100 * m) = psX base cz z31 := by linarith
    have hle : ∀ z ∈ [z12, z23, z31], psX base cz z ≤ 100 * m := by
      intro z hz
      simp only [List.mem_cons, List.not_mem_nil, or_false] at hz
      rcases hz with rfl | rfl | rfl
      · exact min_eq_left_iff.1 k12
      · exact min_eq_left_iff.1 k23
      · exact min_eq_left_iff.1 k31
    have hge : ∀ z ∈ [z12, z23, z31], m ≤ psX base cz z := by
      intro z hz
      simp only [List.mem_cons, List.not_mem_nil, or_false] at hz
      rw [hmdef]
      rcases hz with rfl | rfl | rfl
      · exact min_le_left _ _
      · exact (min_le_right _ _).trans (min_le_left _ _)
      · exact (min_le_right _ _).trans (min_le_right _ _)
    obtain ⟨z, hz, z', hz', hlt⟩ := hbig
    have := hle z hz
    have := hge z' hz'
    linarith

/-! ## buses -/

/-- a line of a bus: its number and its voltage in the third field -/
def PsBus (b : Int × Rat) (l : Tok) : Prop := l.take 3 ≠ "0 /".toList ∧ PsWhole l 0 b.1 ∧ PsNumber l 2 b.2

theorem psNodeLoop_ok (e : Tok) (tail : List Tok) (he : e.take 3 = "0 /".toList) (bs : List (Int × Rat)) (ls : List Tok) (h : List.Forall₂ PsBus bs ls) (acc : List (Int × Rat)) :
    psNodeLoop (ls ++ e :: tail) acc = .ok (acc ++ bs) := by
  induction h generalizing acc with
  | nil =>
    have h : psEnds e = true := by unfold psEnds; rw [beq_iff_eq]; exact he
    rw [List.nil_append, psNodeLoop, if_pos h, List.append_nil]
  | cons hb _ ih =>
    obtain ⟨hn, h1, h2⟩ := hb
    rw [List.cons_append, psNodeLoop, psEnds_not hn, if_neg (by simp)]
    simp only [psInt_of h1, psFloat_of h2, bind, Except.bind]
    rw [ih]
    simp

/-- C180: a file with three lines of header and at least two buses: all buses are read, in their order -/
theorem C180_buses_partial (h1 h2 h3 : Tok) (bs : List (Int × Rat)) (ls : List Tok) (h : List.Forall₂ PsBus bs ls) (e : Tok) (he : e.take 3 = "0 /".toList) (tail : List Tok) (hlen : 2 ≤ bs.length) :
    psNodes (h1 :: h2 :: h3 :: (ls ++ e :: tail)) = .ok bs := by
  cases h with
  | nil => simp at hlen
  | cons hb hr =>
    rename_i b l bs ls
    obtain ⟨hn, hb1, hb2⟩ := hb
    unfold psNodes
    simp only [List.drop_succ_cons, List.drop_zero, List.cons_append, psInt_of hb1, psFloat_of hb2, bind, Except.bind, psNodeLoop_ok e tail he bs ls hr]
    rw [if_neg]
    · rfl
    · simp only [List.length_append, List.length_cons, List.length_nil] at hlen ⊢
      omega

/-- C180: a file with one bus cannot be read -/
theorem C180_single_violated (h1 h2 h3 : Tok) (b : Int × Rat) (l : Tok) (h : PsBus b l) (e : Tok) (he : e.take 3 = "0 /".toList) (tail : List Tok) :
    psNodes (h1 :: h2 :: h3 :: l :: e :: tail) = .error .type := by
  obtain ⟨hn, hb1, hb2⟩ := h
  have := psNodeLoop_ok e tail he [] [] .nil [(b.1, b.2)]
  rw [List.nil_append] at this
  unfold psNodes
  simp only [List.drop_succ_cons, List.drop_zero, psInt_of hb1, psFloat_of hb2, bind, Except.bind, this]
  rfl

/-- C180: the version of the file has no influence on what is read: files of versions that are not supported are read all the same -/
theorem C180_version_violated (junk : PsRow) (sqrt : Rat → Rat) (l l' : Tok) (rest : List Tok) (hbase : psFloat l 1 = psFloat l' 1) (v v' : Int) (hv : PsWhole l 2 v) (hv' : PsWhole l' 2 v') :
    readPsse junk sqrt (l :: rest) = readPsse junk sqrt (l' :: rest) := by
  have e1 : psNodes (l :: rest) = psNodes (l' :: rest) := rfl
  have e2 : ∀ base, psTrafos junk sqrt base (l :: rest) = psTrafos junk sqrt base (l' :: rest) := fun base => rfl
  unfold readPsse psVersion psBase
  simp only [psInt_of hv, psInt_of hv', hbase, e1, e2, Except.map, bind, Except.bind]

/-! ## a file -/

def exPsL0 : Tok := "1, 2, 0,'1 ',1,2,1".toList
def exPsL1 : Tok := " 0.01,0.2, 50.0".toList
def exPsL2 : Tok := "1.0, 110".toList
def exPsM0 : Tok := "3,4,5,'1 ',1,1,1".toList
def exPsM1 : Tok := ".01,.2,1E2,.02,.3,1E2,.03,.4,1E2".toList

theorem psNumber_intro (line : Tok) (i : Nat) (v : Rat) (cells : List Tok) (a : Tok) (n : PyNum) (b : Tok) (h1 : ∀ c ∈ cells, ',' ∉ c) (h2 : line = List.intercalate [','] cells)
    (h3 : cells[i]? = some (a ++ n.text ++ b)) (ha : ∀ x ∈ a, isBlank x = true) (hb : ∀ x ∈ b, isBlank x = true) (hv : n.Valid) (h : n.value = v) : PsNumber line i v :=
  ⟨cells, h1, h2, _, h3, a, n, b, ha, hb, hv, rfl, h⟩

theorem psWhole_intro (line : Tok) (i : Nat) (v : Int) (cells : List Tok) (a : Tok) (n : PyNum) (b : Tok) (h1 : ∀ c ∈ cells, ',' ∉ c) (h2 : line = List.intercalate [','] cells)
    (h3 : cells[i]? = some (a ++ n.text ++ b)) (ha : ∀ x ∈ a, isBlank x = true) (hb : ∀ x ∈ b, isBlank x = true) (hv : n.Valid) (hp : n.Plain) (h : n.value = v) : PsWhole line i v :=
  ⟨cells, h1, h2, _, h3, a, n, b, ha, hb, hv, hp, rfl, h⟩

theorem exPs_two : PsLaid (.two 1 2 2 ⟨1 / 100, 1 / 5, 50⟩) [exPsL0, exPsL1, exPsL2, exPsL2] := by
  have hw : ∀ c ∈ psSplit exPsL0, ',' ∉ c := by decide +kernel
  have hx : ∀ c ∈ psSplit exPsL1, ',' ∉ c := by decide +kernel
  have hy : ∀ c ∈ psSplit exPsL2, ',' ∉ c := by decide +kernel
  have e : exPsL0 = List.intercalate [','] (psSplit exPsL0) := by decide +kernel
  have ex : exPsL1 = List.intercalate [','] (psSplit exPsL1) := by decide +kernel
  have ey : exPsL2 = List.intercalate [','] (psSplit exPsL2) := by decide +kernel
  have num : PsNumber exPsL2 1 110 := psNumber_intro exPsL2 1 110 _ [' '] { int := [1, 1, 0] } [] hy ey (by decide +kernel) (by decide) (by decide) ⟨by decide, by decide, by simp⟩ (by decide +kernel)
  refine PsLaid.two 1 2 2 1 1 ⟨1 / 100, 1 / 5, 50⟩ 110 110 _ _ _ _ (by decide +kernel) ?_ ?_ ?_ ?_ ?_ ?_ ⟨?_, ?_, ?_⟩ num num
  · exact psWhole_intro exPsL0 0 1 _ [] { int := [1] } [] hw e (by decide +kernel) (by decide) (by decide) ⟨by decide, by decide, by simp⟩ (by decide) (by decide +kernel)
  · exact psWhole_intro exPsL0 1 2 _ [' '] { int := [2] } [] hw e (by decide +kernel) (by decide) (by decide) ⟨by decide, by decide, by simp⟩ (by decide) (by decide +kernel)
  · exact psWhole_intro exPsL0 2 0 _ [' '] { int := [0] } [] hw e (by decide +kernel) (by decide) (by decide) ⟨by decide, by decide, by simp⟩ (by decide) (by decide +kernel)
  · exact psWhole_intro exPsL0 4 1 _ [] { int := [1] } [] hw e (by decide +kernel) (by decide) (by decide) ⟨by decide, by decide, by simp⟩ (by decide) (by decide +kernel)
  · exact psWhole_intro exPsL0 5 2 _ [] { int := [2] } [] hw e (by decide +kernel) (by decide) (by decide) ⟨by decide, by decide, by simp⟩ (by decide) (by decide +kernel)
  · exact psWhole_intro exPsL0 6 1 _ [] { int := [1] } [] hw e (by decide +kernel) (by decide) (by decide) ⟨by decide, by decide, by simp⟩ (by decide) (by decide +kernel)
  · exact psNumber_intro exPsL1 0 _ _ [' '] { int := [0], point := true, frac := [0, 1] } [] hx ex (by decide +kernel) (by decide) (by decide) ⟨by decide, by decide, by simp⟩ (by decide +kernel)
  · exact psNumber_intro exPsL1 1 _ _ [] { int := [0], point := true, frac := [2] } [] hx ex (by decide +kernel) (by decide) (by decide) ⟨by decide, by decide, by simp⟩ (by decide +kernel)
  · exact psNumber_intro exPsL1 2 _ _ [' '] { int := [5, 0], point := true, frac := [0] } [] hx ex (by decide +kernel) (by decide) (by decide) ⟨by decide, by decide, by simp⟩ (by decide +kernel)

theorem exPs_three : PsLaid (.three 3 4 5 1 ⟨1 / 100, 1 / 5, 100⟩ ⟨1 / 50, 3 / 10, 100⟩ ⟨3 / 100, 2 / 5, 100⟩) [exPsM0, exPsM1, exPsL2, exPsL2, exPsL2] := by
  have hw : ∀ c ∈ psSplit exPsM0, ',' ∉ c := by decide +kernel
  have hx : ∀ c ∈ psSplit exPsM1, ',' ∉ c := by decide +kernel
  have hy : ∀ c ∈ psSplit exPsL2, ',' ∉ c := by decide +kernel
  have e : exPsM0 = List.intercalate [','] (psSplit exPsM0) := by decide +kernel
  have ex : exPsM1 = List.intercalate [','] (psSplit exPsM1) := by decide +kernel
  have ey : exPsL2 = List.intercalate [','] (psSplit exPsL2) := by decide +kernel
  have num : PsNumber exPsL2 1 110 := psNumber_intro exPsL2 1 110 _ [' '] { int := [1, 1, 0] } [] hy ey (by decide +kernel) (by decide) (by decide) ⟨by decide, by decide, by simp⟩ (by decide +kernel)
  have whole : ∀ (i : Nat) (d : Fin 10) (v : Int), (psSplit exPsM0)[i]? = some [digitChar d] → v = (d.val : Int) → PsWhole exPsM0 i v := by
    intro i d v h hv
    refine psWhole_intro exPsM0 i v _ [] { int := [d] } [] hw e (by rw [h]; rfl) (by decide) (by decide) ⟨by simp, by simp, by simp⟩ ⟨rfl, rfl⟩ ?_
    subst hv
    simp [PyNum.value, PyNum.power, PyNum.signValue, numberOf]
  have frac : ∀ (i : Nat) (ds : List (Fin 10)) (v : Rat), (psSplit exPsM1)[i]? = some ('.' :: ds.map digitChar) → ds ≠ [] → v = (numberOf ds : Rat) / 10 ^ ds.length → PsNumber exPsM1 i v := by
    intro i ds v h hd hv
    refine psNumber_intro exPsM1 i v _ [] { point := true, frac := ds } [] hx ex (by rw [h]; simp [PyNum.text, PyNum.signText, PyNum.mantissaText, PyNum.expText]) (by decide) (by decide) ⟨by simpa using hd, by simp, by simp⟩ ?_
    subst hv
    simp [PyNum.value, PyNum.power, PyNum.signValue, numberOf]
  have base : ∀ (i : Nat), (psSplit exPsM1)[i]? = some "1E2".toList → PsNumber exPsM1 i 100 := by
    intro i h
    exact psNumber_intro exPsM1 i 100 _ [] { int := [1], exp := some (true, none, [2]) } [] hx ex (by rw [h]; decide +kernel) (by decide) (by decide)
      ⟨by decide, by decide, by simp⟩ (by decide +kernel)
  refine PsLaid.three 3 4 5 1 1 1 _ _ _ 110 110 110 _ _ _ _ _ (by decide +kernel) (by decide) ?_ ?_ ?_ ?_ ?_ ?_ ⟨?_, ?_, ?_⟩ ⟨?_, ?_, ?_⟩ ⟨?_, ?_, ?_⟩ num num num
  · exact whole 0 3 3 (by decide +kernel) (by decide)
  · exact whole 1 4 4 (by decide +kernel) (by decide)
  · exact whole 2 5 5 (by decide +kernel) (by decide)
  · exact whole 4 1 1 (by decide +kernel) (by decide)
  · exact whole 5 1 1 (by decide +kernel) (by decide)
  · exact whole 6 1 1 (by decide +kernel) (by decide)
  · exact frac 0 [0, 1] _ (by decide +kernel) (by decide) (by decide +kernel)
  · exact frac 1 [2] _ (by decide +kernel) (by decide) (by decide +kernel)
  · exact base 2 (by decide +kernel)
  · exact frac 3 [0, 2] _ (by decide +kernel) (by decide) (by decide +kernel)
  · exact frac 4 [3] _ (by decide +kernel) (by decide) (by decide +kernel)
  · exact base 5 (by decide +kernel)
  · exact frac 6 [0, 3] _ (by decide +kernel) (by decide) (by decide +kernel)
  · exact frac 7 [4] _ (by decide +kernel) (by decide) (by decide +kernel)
  · exact base 8 (by decide +kernel)

/-- the hypotheses of C179 are met: a transformer on its own base of 50 MVA and one with three windings -/
theorem C179_witness (junk : PsRow) (sqrt : Rat → Rat) (tail : List Tok) :
    ∃ s, psTrafos junk sqrt 100 (List.replicate 14553 [] ++ ([[exPsL0, exPsL1, exPsL2, exPsL2], [exPsM0, exPsM1, exPsL2, exPsL2, exPsL2]].flatten ++ "0 /end".toList :: tail)) = .ok s ∧
      PsResult 100 1 [.two 1 2 2 ⟨1 / 100, 1 / 5, 50⟩, .three 3 4 5 1 ⟨1 / 100, 1 / 5, 100⟩ ⟨1 / 50, 3 / 10, 100⟩ ⟨3 / 100, 2 / 5, 100⟩] s.two s.three := by
  refine C179_transformers_partial junk sqrt 100 _ (List.length_replicate ..) _ _ (.cons exPs_two (.cons exPs_three .nil)) ?_ _ (by decide +kernel) tail ⟨_, List.mem_cons_self .., trivial⟩
    ⟨_, List.mem_cons_of_mem _ (List.mem_cons_self ..), id⟩
  intro t ht
  simp only [List.mem_cons, List.not_mem_nil, or_false] at ht
  rcases ht with rfl | rfl
  · exact Or.inr ⟨rfl, by decide +kernel⟩
  · refine ⟨Or.inl rfl, by decide +kernel⟩

/-- its branches -/
example : (psTrafoLoop 100 id [exPsL0, exPsL1, exPsL2, exPsL2, exPsM0, exPsM1, exPsL2, exPsL2, exPsL2, "0 /".toList] ⟨0, 0, [⟨7, 7, 7, 7⟩], [⟨7, 7, 7, 7⟩]⟩).toOption =
    some ⟨1, 1, [⟨1, 2, 1 / 50, 2 / 5⟩], [⟨3, 1000001, 1 / 100, 3 / 20⟩, ⟨4, 1000001, 0, 1 / 20⟩, ⟨5, 1000001, 1 / 50, 1 / 4⟩]⟩ := by decide +kernel

/-- two buses -/
example : (psNodes ["0, 100.0, 33".toList, [], [], "1,'A', 110.0".toList, "2,'B',20".toList, "0 /".toList]).toOption = some [(1, 110), (2, 20)] := by decide +kernel

end Pyensys
