import Verif.Model.TimeSeries
import Verif.Props.Energy
import Verif.Props.AttestOptions
import Mathlib.Tactic.Linarith

/-!
# The reader of the time series (C210-C212)
-/

namespace Pyensys

/-! ## specification -/

/-- the number of links of a profile: the largest of its links -/
def TsProfile.width (p : TsProfile) : Nat := p.links.foldr max 0

/-- total of a number over some profiles -/
def tsTotal (g : TsProfile → Nat) (ps : List TsProfile) : Nat := (ps.map g).sum

/-- the number of rows that a profile has in the table of profiles: one for each period and link -/
def TsProfile.size (p : TsProfile) : Nat := p.period * p.width

/-- the values of a profile fill `n` rows and `hours` columns: a table (or one row, or one column, that is repeated) -/
def TsFits (n hours : Nat) : TsValues → Prop
  | .flat l => l.length = hours ∨ l.length = 1
  | .rows rs => (∃ w, (w = hours ∨ w = 1) ∧ ∀ r ∈ rs, r.length = w) ∧ (rs.length = n ∨ rs.length = 1)

/-- the value of row `i` and hour `x` of a profile with `n` rows and `hours` columns -/
def tsCell (n hours : Nat) (v : TsValues) (i x : Nat) : Option Rat :=
  match v with
  | .flat l => l[if l.length = hours then x else 0]?
  | .rows rs => (rs[if rs.length = n then i else 0]?).bind (fun r => r[if r.length = hours then x else 0]?)

/-! ## lemmas -/

theorem foldl_max (l : List Nat) : ∀ a, l.foldl max a = max a (l.foldr max 0) := by
  induction l with
  | nil => intro a; simp
  | cons b l ih =>
    intro a
    rw [List.foldl_cons, ih, List.foldr_cons]
    omega

theorem tsMax_iff (l : List Nat) (m : Nat) : tsMax l = .ok m ↔ l ≠ [] ∧ m = l.foldr max 0 := by
  cases l with
  | nil =>
    constructor
    · intro h; cases h
    · rintro ⟨h, _⟩; exact absurd rfl h
  | cons a l =>
    show (Except.ok (l.foldl max a) : Except PyErr Nat) = .ok m ↔ _
    rw [foldl_max]
    constructor
    · intro h
      injection h with h
      exact ⟨by simp, by rw [← h]; rfl⟩
    · rintro ⟨_, rfl⟩; rfl

theorem tsGet_iff (f : TsFile) (t : Tok) (p : TsProfile) : tsGet f t = .ok p ↔ f.profiles.lookup t = some p := by
  unfold tsGet
  cases f.profiles.lookup t with
  | none => simp
  | some q => simp

/-- the rows of `LLRESType` -/
def tsTypeRows : Int → List TsProfile → List (Int × Int)
  | _, [] => []
  | a, p :: ps => (a + 1, a + p.period) :: tsTypeRows (a + p.period) ps

/-- the titles are those of the profiles -/
def TsNamed (f : TsFile) (titles : List Tok) (ps : List TsProfile) : Prop := List.Forall₂ (fun t p => f.profiles.lookup t = some p) titles ps

theorem tsFirst_fold (f : TsFile) (titles : List Tok) : ∀ (s a : TsFirst), titles.foldlM (tsFirstStep f) s = .ok a ↔
    ∃ ps, TsNamed f titles ps ∧ (∀ p ∈ ps, p.links ≠ []) ∧
      a = ⟨s.noRES + tsTotal TsProfile.period ps, s.noLink + tsTotal TsProfile.width ps,
        s.sizes ++ ps.map (fun p => ⟨p.period, p.width, p.bus.length⟩), s.types ++ tsTypeRows s.noRES ps⟩ := by
  induction titles with
  | nil =>
    intro s a
    constructor
    · intro h
      injection h with h
      subst h
      exact ⟨[], List.Forall₂.nil, by simp, by simp [tsTotal, tsTypeRows]⟩
    · rintro ⟨ps, h1, _, rfl⟩
      cases h1
      simp [tsTotal, tsTypeRows, pure, Except.pure]
  | cons t titles ih =>
    intro s a
    rw [List.foldlM_cons, except_bind_ok]
    constructor
    · rintro ⟨b, hb, h⟩
      unfold tsFirstStep at hb
      obtain ⟨p, hp, hb⟩ := except_bind_ok.1 hb
      obtain ⟨l, hl, hb⟩ := except_bind_ok.1 hb
      injection hb with hb
      subst hb
      obtain ⟨hn, rfl⟩ := (tsMax_iff _ _).1 hl
      obtain ⟨ps, h1, h2, h3⟩ := (ih _ _).1 h
      refine ⟨p :: ps, List.Forall₂.cons ((tsGet_iff _ _ _).1 hp) h1, ?_, ?_⟩
      · intro q hq
        rcases List.mem_cons.1 hq with rfl | hq
        · exact hn
        · exact h2 q hq
      · rw [h3]
        simp only [tsTotal, List.map_cons, List.sum_cons, tsTypeRows, List.append_assoc, List.cons_append, List.nil_append, TsProfile.width]
        congr 1
        · push_cast; ring
        · ring
    · rintro ⟨ps, h1, h2, h3⟩
      cases h1 with
      | cons hp h1 =>
        rename_i p ps
        refine ⟨⟨s.noRES + p.period, s.noLink + p.width, s.sizes ++ [⟨p.period, p.width, p.bus.length⟩], s.types ++ [(s.noRES + 1, s.noRES + p.period)]⟩, ?_, ?_⟩
        · unfold tsFirstStep
          exact except_bind_ok.2 ⟨p, (tsGet_iff _ _ _).2 hp, except_bind_ok.2 ⟨p.width, (tsMax_iff _ _).2 ⟨h2 p (by simp), rfl⟩, rfl⟩⟩
        · refine (ih _ _).2 ⟨ps, h1, fun q hq => h2 q (by simp [hq]), ?_⟩
          rw [h3]
          simp only [tsTotal, List.map_cons, List.sum_cons, tsTypeRows, List.append_assoc, List.cons_append, List.nil_append]
          congr 1
          · push_cast; ring
          · ring

theorem tsTypeRows_at (pre : List TsProfile) (p : TsProfile) (post : List TsProfile) : ∀ a : Int,
    (tsTypeRows a (pre ++ p :: post))[pre.length]? = some (a + tsTotal TsProfile.period pre + 1, a + tsTotal TsProfile.period pre + p.period) := by
  induction pre with
  | nil => intro a; simp [tsTypeRows, tsTotal]
  | cons q pre ih =>
    intro a
    rw [List.cons_append, tsTypeRows, List.length_cons, List.getElem?_cons_succ, ih]
    simp only [tsTotal, List.map_cons, List.sum_cons]
    push_cast
    congr 2 <;> ring

theorem tsTypeRows_length (ps : List TsProfile) : ∀ a, (tsTypeRows a ps).length = ps.length := by
  induction ps with
  | nil => intro a; rfl
  | cons p ps ih => intro a; simp [tsTypeRows, ih]

/-- the rows of `LLRESPeriod` -/
theorem tsPeriods_fold (ls : List Nat) : ∀ (acc : List (Int × Int)) (a : Int), ∃ rows, ls.foldl tsPeriodStep (acc, a) = (acc ++ rows, a + (ls.sum : Int)) ∧
    rows.length = ls.length ∧ ∀ i, i < ls.length → rows[i]? = some (a + ((ls.take i).sum : Int) + 1, a + ((ls.take (i + 1)).sum : Int)) := by
  induction ls with
  | nil => intro acc a; exact ⟨[], by simp, rfl, by intro i hi; simp at hi⟩
  | cons l ls ih =>
    intro acc a
    obtain ⟨rows, h1, h2, h3⟩ := ih (acc ++ [(a + 1, a + l)]) (a + l)
    refine ⟨(a + 1, a + l) :: rows, ?_, by simp [h2], ?_⟩
    · rw [List.foldl_cons]
      unfold tsPeriodStep
      dsimp only
      change ls.foldl tsPeriodStep (acc ++ [(a + 1, a + l)], a + l) = _
      rw [h1]
      simp
      ring
    · intro i hi
      cases i with
      | zero => simp
      | succ i =>
        rw [List.getElem?_cons_succ, h3 i (by simpa using hi)]
        simp only [List.take_succ_cons, List.sum_cons]
        push_cast
        congr 2 <;> ring

theorem tsFlat_length (ps : List TsProfile) : (ps.flatMap (fun p => List.replicate p.period p.width)).length = tsTotal TsProfile.period ps ∧
    (ps.flatMap (fun p => List.replicate p.period p.width)).sum = tsTotal TsProfile.size ps := by
  induction ps with
  | nil => simp [tsTotal]
  | cons p ps ih =>
    obtain ⟨h1, h2⟩ := ih
    unfold tsTotal at *
    constructor
    · simp only [List.flatMap_cons, List.length_append, List.length_replicate, h1, List.map_cons, List.sum_cons]
    · simp only [List.flatMap_cons, List.sum_append, List.sum_replicate, nsmul_eq_mul, Nat.cast_id, h2, List.map_cons, List.sum_cons, TsProfile.size]

theorem tsPeriods_at (pre : List TsProfile) (p : TsProfile) (post : List TsProfile) (j : Nat) (hj : j < p.period) :
    (tsPeriods ((pre ++ p :: post).map (fun p => (⟨p.period, p.width, p.bus.length⟩ : TsSize)))).1[tsTotal TsProfile.period pre + j]? =
      some ((tsTotal TsProfile.size pre + j * p.width : Int), (tsTotal TsProfile.size pre + j * p.width : Int) + p.width - 1) := by
  unfold tsPeriods
  rw [List.flatMap_map]
  dsimp only
  obtain ⟨rows, h1, h2, h3⟩ := tsPeriods_fold ((pre ++ p :: post).flatMap (fun p => List.replicate p.period p.width)) [] (-1)
  rw [h1, List.nil_append]
  obtain ⟨l1, s1⟩ := tsFlat_length pre
  have htake : ∀ m, m ≤ p.period → ((pre ++ p :: post).flatMap (fun p => List.replicate p.period p.width)).take (tsTotal TsProfile.period pre + m) =
      pre.flatMap (fun p => List.replicate p.period p.width) ++ List.replicate m p.width := by
    intro m hm
    rw [List.flatMap_append, List.flatMap_cons, ← l1, List.take_length_add_append, List.take_append_of_le_length (by simpa using hm), List.take_replicate, Nat.min_eq_left hm]
  rw [h3 _ (by rw [List.flatMap_append, List.flatMap_cons]; simp only [List.length_append, List.length_replicate, l1]; omega)]
  rw [htake j (by omega), Nat.add_assoc, htake (j + 1) hj]
  simp only [List.sum_append, s1, List.sum_replicate, nsmul_eq_mul, Nat.cast_id]
  push_cast
  congr 2 <;> ring

theorem tsPeriods_length (ps : List TsProfile) : (tsPeriods (ps.map (fun p => (⟨p.period, p.width, p.bus.length⟩ : TsSize)))).1.length = tsTotal TsProfile.period ps := by
  unfold tsPeriods
  rw [List.flatMap_map]
  dsimp only
  obtain ⟨rows, h1, h2, h3⟩ := tsPeriods_fold (ps.flatMap (fun p => List.replicate p.period p.width)) [] (-1)
  rw [h1, List.nil_append, h2, (tsFlat_length ps).1]

theorem tsRow_iff (h : Nat) (l r : List Rat) : tsRow h l = .ok r ↔
    (l.length = h ∨ l.length = 1) ∧ r.length = h ∧ ∀ x, x < h → r[x]? = l[if l.length = h then x else 0]? := by
  unfold tsRow
  by_cases h1 : l.length = h
  · rw [if_pos h1]
    simp only [if_pos h1]
    constructor
    · intro h2
      injection h2 with h2
      subst h2
      exact ⟨Or.inl h1, h1, fun _ _ => rfl⟩
    · rintro ⟨_, h2, h3⟩
      congr 1
      refine List.ext_getElem? ?_
      intro i
      by_cases hi : i < h
      · exact (h3 i hi).symm
      · rw [List.getElem?_eq_none (by omega), List.getElem?_eq_none (by omega)]
  · rw [if_neg h1]
    simp only [if_neg h1]
    match l, h1 with
    | [], h1 =>
      constructor
      · intro h2; cases h2
      · rintro ⟨h2 | h2, _⟩
        · exact absurd h2 h1
        · cases h2
    | [q], h1 =>
      constructor
      · intro h2
        injection h2 with h2
        subst h2
        refine ⟨Or.inr rfl, by simp, ?_⟩
        intro x hx
        simp [hx]
      · rintro ⟨_, h2, h3⟩
        show Except.ok (List.replicate h q) = Except.ok r
        congr 1
        refine List.ext_getElem? ?_
        intro i
        by_cases hi : i < h
        · rw [h3 i hi]
          simp [hi]
        · rw [List.getElem?_eq_none (by simp; omega), List.getElem?_eq_none (by omega)]
    | a :: b :: l, h1 =>
      constructor
      · intro h2; cases h2
      · rintro ⟨h2 | h2, _⟩
        · exact absurd h2 h1
        · simp at h2

/-- a block of `n` rows and `hours` columns that holds the values of the profile -/
def TsBlockOf (n hours : Nat) (v : TsValues) (b : List (List Rat)) : Prop :=
  b.length = n ∧ ∀ i, i < n → ∃ r : List Rat, b[i]? = some r ∧ r.length = hours ∧ ∀ x, x < hours → r[x]? = tsCell n hours v i x

theorem tsBlockOf_unique {n hours : Nat} {v : TsValues} {b c : List (List Rat)} (hb : TsBlockOf n hours v b) (hc : TsBlockOf n hours v c) : b = c := by
  obtain ⟨b1, b2⟩ := hb
  obtain ⟨c1, c2⟩ := hc
  refine List.ext_getElem? ?_
  intro i
  by_cases hi : i < n
  · obtain ⟨r, r1, r2, r3⟩ := b2 i hi
    obtain ⟨t, t1, t2, t3⟩ := c2 i hi
    rw [r1, t1]
    congr 1
    refine List.ext_getElem? ?_
    intro x
    by_cases hx : x < hours
    · rw [r3 x hx, t3 x hx]
    · rw [List.getElem?_eq_none (by omega), List.getElem?_eq_none (by omega)]
  · rw [List.getElem?_eq_none (by omega), List.getElem?_eq_none (by omega)]

theorem tsBlock_ok (n hours : Nat) (v : TsValues) (b : List (List Rat)) (h : tsBlock n hours v = .ok b) : TsFits n hours v ∧ TsBlockOf n hours v b := by
  cases v with
  | flat l =>
    obtain ⟨r, hr, h⟩ := except_bind_ok.1 (show (tsRow hours l >>= fun r => .ok (List.replicate n r)) = .ok b from h)
    injection h with h
    subst h
    obtain ⟨h1, h2, h3⟩ := (tsRow_iff _ _ _).1 hr
    refine ⟨h1, by simp, ?_⟩
    intro i hi
    exact ⟨r, by simp [hi], h2, h3⟩
  | rows rs =>
    unfold tsBlock at h
    dsimp only at h
    by_cases hu : (rs.any (fun r => decide (r.length ≠ (rs.headD []).length))) = true
    · rw [if_pos hu] at h; cases h
    rw [if_neg hu] at h
    have hw : ∀ r ∈ rs, r.length = (rs.headD []).length := by
      intro r hr
      by_contra hc
      exact hu (List.any_eq_true.2 ⟨r, hr, by simpa using hc⟩)
    by_cases hn : rs.length = n
    · rw [if_pos hn] at h
      have hf := (mapM_ok_iff _ _ _).1 h
      have hlen := hf.length_eq
      refine ⟨⟨?_, Or.inl hn⟩, by omega, ?_⟩
      · cases rs with
        | nil => exact ⟨hours, Or.inl rfl, by simp⟩
        | cons r rs =>
          cases hf with
          | cons h1 h2 => exact ⟨r.length, ((tsRow_iff _ _ _).1 h1).1, hw⟩
      · intro i hi
        obtain ⟨r, hr⟩ : ∃ r, rs[i]? = some r := ⟨_, List.getElem?_eq_getElem (by omega)⟩
        obtain ⟨t, ht⟩ : ∃ t, b[i]? = some t := ⟨_, List.getElem?_eq_getElem (by omega)⟩
        have hrt : tsRow hours r = .ok t := by
          have := List.forall₂_iff_get.1 hf
          have h3 := this.2 i (by omega) (by omega)
          obtain ⟨_, e1⟩ := List.getElem?_eq_some_iff.1 hr
          obtain ⟨_, e2⟩ := List.getElem?_eq_some_iff.1 ht
          simp only [List.get_eq_getElem, e1, e2] at h3
          exact h3
        obtain ⟨_, h2, h3⟩ := (tsRow_iff _ _ _).1 hrt
        refine ⟨t, ht, h2, ?_⟩
        intro x hx
        rw [h3 x hx]
        simp [tsCell, hn, hr]
    · rw [if_neg hn] at h
      match rs, h, hn with
      | [], h, _ => cases h
      | [r], h, hn =>
        obtain ⟨t, ht, h⟩ := except_bind_ok.1 (show (tsRow hours r >>= fun r => .ok (List.replicate n r)) = .ok b from h)
        injection h with h
        subst h
        obtain ⟨h1, h2, h3⟩ := (tsRow_iff _ _ _).1 ht
        refine ⟨⟨⟨r.length, h1, by simp⟩, Or.inr rfl⟩, by simp, ?_⟩
        intro i hi
        refine ⟨t, by simp [hi], h2, ?_⟩
        intro x hx
        rw [h3 x hx]
        simp only [tsCell, if_neg hn]
        rfl
      | _ :: _ :: _, h, _ => cases h

theorem tsBlock_exists (n hours : Nat) (v : TsValues) (h : TsFits n hours v) : ∃ b, tsBlock n hours v = .ok b := by
  have hrow : ∀ l : List Rat, (l.length = hours ∨ l.length = 1) → ∃ r, tsRow hours l = .ok r := by
    intro l hl
    unfold tsRow
    by_cases h1 : l.length = hours
    · rw [if_pos h1]; exact ⟨l, rfl⟩
    · rw [if_neg h1]
      rcases hl with hl | hl
      · exact absurd hl h1
      · match l, hl with
        | [q], _ => exact ⟨_, rfl⟩
  cases v with
  | flat l =>
    obtain ⟨r, hr⟩ := hrow l h
    exact ⟨List.replicate n r, by unfold tsBlock; dsimp only; rw [hr]; rfl⟩
  | rows rs =>
    obtain ⟨⟨w, hw, hall⟩, hn⟩ := h
    unfold tsBlock
    dsimp only
    have hu : ¬ (rs.any (fun r => decide (r.length ≠ (rs.headD []).length))) = true := by
      intro hc
      obtain ⟨r, hr, hc⟩ := List.any_eq_true.1 hc
      cases rs with
      | nil => simp at hr
      | cons a rs =>
        exact of_decide_eq_true hc ((hall r hr).trans (hall a (by simp)).symm)
    rw [if_neg hu]
    have hm : ∀ l : List (List Rat), (∀ r ∈ l, r.length = w) → ∃ b, l.mapM (tsRow hours) = .ok b := by
      intro l
      induction l with
      | nil => intro _; exact ⟨[], rfl⟩
      | cons a l ih =>
        intro hl
        obtain ⟨r, hr⟩ := hrow a (by rw [hl a (by simp)]; exact hw)
        obtain ⟨b, hb⟩ := ih (fun r hr => hl r (by simp [hr]))
        exact ⟨r :: b, by rw [List.mapM_cons, hr, hb]; rfl⟩
    by_cases h1 : rs.length = n
    · rw [if_pos h1]
      exact hm rs hall
    · rw [if_neg h1]
      rcases hn with hn | hn
      · exact absurd hn h1
      · match rs, hn with
        | [r], _ =>
          obtain ⟨t, ht⟩ := hrow r (by rw [hall r (by simp)]; exact hw)
          exact ⟨List.replicate n t, by dsimp only; rw [ht]; rfl⟩

/-! ## the plants -/

theorem tsPlant_fold (p : TsProfile) (profs : List (List Rat)) (B K : List Nat) (m off : Nat) (hK : K.length = B.length) (n : Nat) : ∀ s : TsLast,
    (List.range n).foldlM (tsPlant p) ⟨profs, B ++ List.replicate m 0, K ++ List.replicate m 0, B.length, off⟩ = .ok s ↔
    n ≤ p.bus.length ∧ n ≤ p.links.length ∧ n ≤ m ∧
      s = ⟨profs, B ++ p.bus.take n ++ List.replicate (m - n) 0, K ++ (p.links.take n).map (fun l => l + off) ++ List.replicate (m - n) 0, B.length + n, off⟩ := by
  induction n with
  | zero =>
    intro s
    simp [pure, Except.pure, eq_comm]
  | succ n ih =>
    intro s
    rw [List.range_succ (n := n), List.foldlM_append, except_bind_ok]
    constructor
    · rintro ⟨u, hu, h⟩
      obtain ⟨h1, h2, h3, rfl⟩ := (ih u).1 hu
      obtain ⟨v, hv, h⟩ := except_bind_ok.1 (show (tsPlant p _ n >>= fun s => pure s) = .ok s from h)
      injection h with h
      subst h
      unfold tsPlant at hv
      obtain ⟨b, hb, hv⟩ := except_bind_ok.1 hv
      obtain ⟨bs, hbs, hv⟩ := except_bind_ok.1 hv
      obtain ⟨l, hl, hv⟩ := except_bind_ok.1 hv
      obtain ⟨ls, hls, hv⟩ := except_bind_ok.1 hv
      injection hv with hv
      rw [npGet_iff] at hb hl
      obtain ⟨hb1, hb2⟩ := List.getElem?_eq_some_iff.1 hb
      obtain ⟨hl1, hl2⟩ := List.getElem?_eq_some_iff.1 hl
      obtain ⟨hbs1, hbs2⟩ := npSet_iff.1 hbs
      obtain ⟨hls1, hls2⟩ := npSet_iff.1 hls
      dsimp only at hbs1 hbs2 hls1 hls2
      have hm : n + 1 ≤ m := by
        simp only [List.length_append, List.length_replicate, List.length_take] at hbs1
        omega
      refine ⟨by omega, by omega, hm, ?_⟩
      rw [← hv, hbs2, hls2]
      obtain ⟨d, rfl⟩ : ∃ d, m = n + 1 + d := ⟨m - (n + 1), by omega⟩
      have e1 : n + 1 + d - n = d + 1 := by omega
      have e2 : n + 1 + d - (n + 1) = d := by omega
      rw [e1, e2, List.replicate_succ]
      have f1 : (B ++ List.take n p.bus ++ 0 :: List.replicate d 0).set (B.length + n) b = B ++ List.take (n + 1) p.bus ++ List.replicate d 0 := by
        have hl : (B ++ List.take n p.bus).length = B.length + n := by simp; omega
        rw [← hl, List.set_append_right _ _ (le_refl _), Nat.sub_self, List.set_cons_zero, List.take_add_one, hb]
        simp
      have f2 : (K ++ (List.take n p.links).map (fun l => l + off) ++ 0 :: List.replicate d 0).set (B.length + n) (l + off) =
          K ++ (List.take (n + 1) p.links).map (fun l => l + off) ++ List.replicate d 0 := by
        have hl' : (K ++ (List.take n p.links).map (fun l => l + off)).length = B.length + n := by simp; omega
        rw [← hl', List.set_append_right _ _ (le_refl _), Nat.sub_self, List.set_cons_zero, List.take_add_one, hl]
        simp
      rw [f1, f2]
      rfl
    · rintro ⟨h1, h2, h3, h4⟩
      refine ⟨_, (ih _).2 ⟨by omega, by omega, by omega, rfl⟩, ?_⟩
      show (tsPlant p _ n >>= fun s => pure s) = .ok s
      refine except_bind_ok.2 ⟨s, ?_, rfl⟩
      unfold tsPlant
      obtain ⟨b, hb⟩ : ∃ b, p.bus[n]? = some b := ⟨_, List.getElem?_eq_getElem (by omega)⟩
      obtain ⟨l, hl⟩ : ∃ l, p.links[n]? = some l := ⟨_, List.getElem?_eq_getElem (by omega)⟩
      refine except_bind_ok.2 ⟨b, npGet_iff.2 hb, except_bind_ok.2 ⟨_, npSet_iff.2 ⟨?_, rfl⟩, except_bind_ok.2 ⟨l, npGet_iff.2 hl, except_bind_ok.2 ⟨_, npSet_iff.2 ⟨?_, rfl⟩, ?_⟩⟩⟩⟩
      · simp; omega
      · simp; omega
      · rw [h4]
        dsimp only
        obtain ⟨d, rfl⟩ : ∃ d, m = n + 1 + d := ⟨m - (n + 1), by omega⟩
        have e1 : n + 1 + d - n = d + 1 := by omega
        have e2 : n + 1 + d - (n + 1) = d := by omega
        rw [e1, e2, List.replicate_succ]
        have f1 : (B ++ List.take n p.bus ++ 0 :: List.replicate d 0).set (B.length + n) b = B ++ List.take (n + 1) p.bus ++ List.replicate d 0 := by
          have hl : (B ++ List.take n p.bus).length = B.length + n := by simp; omega
          rw [← hl, List.set_append_right _ _ (le_refl _), Nat.sub_self, List.set_cons_zero, List.take_add_one, hb]
          simp
        have f2 : (K ++ (List.take n p.links).map (fun l => l + off) ++ 0 :: List.replicate d 0).set (B.length + n) (l + off) =
            K ++ (List.take (n + 1) p.links).map (fun l => l + off) ++ List.replicate d 0 := by
          have hl' : (K ++ (List.take n p.links).map (fun l => l + off)).length = B.length + n := by simp; omega
          rw [← hl', List.set_append_right _ _ (le_refl _), Nat.sub_self, List.set_cons_zero, List.take_add_one, hl]
          simp
        rw [f1, f2]
        rfl

/-! ## the last loop -/

/-- the links of the plants: those of a profile are numbered after those of the profiles before it -/
def tsLinkRows : Nat → List TsProfile → List Nat
  | _, [] => []
  | off, p :: ps => (p.links.take p.bus.length).map (fun l => l + off) ++ tsLinkRows (off + p.width) ps

theorem tsLast_fold (f : TsFile) (hours : Nat) (titles : List Tok) (ps : List TsProfile) (hn : TsNamed f titles ps) :
    ∀ (profs : List (List Rat)) (B K : List Nat) (m off : Nat) (s : TsLast), K.length = B.length →
    ((titles.zip (ps.map (fun p => (⟨p.period, p.width, p.bus.length⟩ : TsSize)))).foldlM (tsLastStep f hours) ⟨profs, B ++ List.replicate m 0, K ++ List.replicate m 0, B.length, off⟩ = .ok s ↔
    (∀ p ∈ ps, p.bus.length ≤ p.links.length) ∧ tsTotal (fun p => p.bus.length) ps ≤ m ∧ ∃ bs : List (List (List Rat)), List.Forall₂ (fun p b => tsBlock p.size hours p.values = .ok b) ps bs ∧
      s = ⟨profs ++ bs.flatten, B ++ ps.flatMap (fun p => p.bus) ++ List.replicate (m - tsTotal (fun p => p.bus.length) ps) 0,
        K ++ tsLinkRows off ps ++ List.replicate (m - tsTotal (fun p => p.bus.length) ps) 0, B.length + tsTotal (fun p => p.bus.length) ps, off + tsTotal TsProfile.width ps⟩) := by
  induction hn with
  | nil =>
    intro profs B K m off s hK
    constructor
    · intro h
      injection h with h
      refine ⟨by simp, by simp [tsTotal], [], List.Forall₂.nil, ?_⟩
      rw [← h]
      simp [tsTotal, tsLinkRows]
    · rintro ⟨_, _, bs, h1, h2⟩
      cases h1
      rw [h2]
      simp [tsTotal, tsLinkRows, pure, Except.pure]
  | cons hp hn ih =>
    rename_i t p titles ps
    intro profs B K m off s hK
    rw [List.map_cons, List.zip_cons_cons, List.foldlM_cons, except_bind_ok]
    have htot : tsTotal (fun p => p.bus.length) (p :: ps) = p.bus.length + tsTotal (fun p => p.bus.length) ps := by simp [tsTotal]
    have htw : tsTotal TsProfile.width (p :: ps) = p.width + tsTotal TsProfile.width ps := by simp [tsTotal]
    have hK2 : p.bus.length ≤ p.links.length → (K ++ (p.links.take p.bus.length).map (fun l => l + off)).length = (B ++ p.bus).length := by
      intro hl
      simp
      omega
    have hstep : ∀ u : TsLast, tsLastStep f hours ⟨profs, B ++ List.replicate m 0, K ++ List.replicate m 0, B.length, off⟩ (t, ⟨p.period, p.width, p.bus.length⟩) = .ok u ↔
        p.bus.length ≤ p.links.length ∧ p.bus.length ≤ m ∧ ∃ b, tsBlock p.size hours p.values = .ok b ∧
          u = ⟨profs ++ b, (B ++ p.bus) ++ List.replicate (m - p.bus.length) 0, (K ++ (p.links.take p.bus.length).map (fun l => l + off)) ++ List.replicate (m - p.bus.length) 0,
            (B ++ p.bus).length, off + p.width⟩ := by
      intro u
      unfold tsLastStep
      rw [except_bind_ok]
      constructor
      · rintro ⟨q, hq, h⟩
        rw [tsGet_iff, hp] at hq
        injection hq with hq
        subst hq
        obtain ⟨b, hb, h⟩ := except_bind_ok.1 h
        obtain ⟨w, hw, h⟩ := except_bind_ok.1 h
        obtain ⟨_, h2, h3, rfl⟩ := (tsPlant_fold p (profs ++ b) B K m off hK p.bus.length w).1 hw
        injection h with h
        refine ⟨h2, h3, b, hb, ?_⟩
        rw [← h]
        simp
      · rintro ⟨h2, h3, b, hb, rfl⟩
        refine ⟨p, (tsGet_iff _ _ _).2 hp, except_bind_ok.2 ⟨b, hb, except_bind_ok.2 ⟨_, (tsPlant_fold p (profs ++ b) B K m off hK p.bus.length _).2 ⟨le_refl _, h2, h3, rfl⟩, ?_⟩⟩⟩
        simp
    constructor
    · rintro ⟨u, hu, h⟩
      obtain ⟨h1, h2, b, hb, rfl⟩ := (hstep u).1 hu
      obtain ⟨h3, h4, bs, h5, h6⟩ := (ih _ _ _ _ _ _ (hK2 h1)).1 h
      refine ⟨?_, by omega, b :: bs, List.Forall₂.cons hb h5, ?_⟩
      · intro q hq
        rcases List.mem_cons.1 hq with rfl | hq
        · exact h1
        · exact h3 q hq
      · rw [h6, htot, htw, Nat.sub_sub]
        simp [tsLinkRows]
        omega
    · rintro ⟨h1, h2, bs, h3, h4⟩
      cases h3 with
      | cons hb h5 =>
        rename_i b bs
        have hl := h1 p (by simp)
        refine ⟨_, (hstep _).2 ⟨hl, by omega, b, hb, rfl⟩, (ih _ _ _ _ _ _ (hK2 hl)).2 ⟨fun q hq => h1 q (by simp [hq]), by omega, bs, h5, ?_⟩⟩
        rw [h4, htot, htw, Nat.sub_sub]
        simp [tsLinkRows]
        omega

theorem tsLinkRows_at (pre : List TsProfile) (p : TsProfile) (post : List TsProfile) (hl : ∀ q ∈ pre ++ p :: post, q.bus.length ≤ q.links.length) (j : Nat) (hj : j < p.bus.length) : ∀ off : Nat,
    (tsLinkRows off (pre ++ p :: post))[tsTotal (fun p => p.bus.length) pre + j]? = (p.links[j]?).map (fun l => l + (off + tsTotal TsProfile.width pre)) := by
  induction pre with
  | nil =>
    intro off
    have := hl p (by simp)
    simp only [List.nil_append, tsLinkRows, tsTotal, List.map_nil, List.sum_nil, Nat.zero_add, Nat.add_zero]
    rw [List.getElem?_append_left (by simp; omega), List.getElem?_map, List.getElem?_take, if_pos hj]
  | cons q pre ih =>
    intro off
    have hq := hl q (by simp)
    rw [List.cons_append, tsLinkRows, List.getElem?_append_right (by simp [tsTotal]; omega)]
    have e : tsTotal (fun p => p.bus.length) (q :: pre) + j - ((q.links.take q.bus.length).map (fun l => l + off)).length = tsTotal (fun p => p.bus.length) pre + j := by
      simp [tsTotal]
      omega
    rw [e, ih (fun r hr => hl r (by simp at hr ⊢; tauto)) (off + q.width)]
    have : tsTotal TsProfile.width (q :: pre) = q.width + tsTotal TsProfile.width pre := by simp [tsTotal]
    rw [this, Nat.add_assoc]

theorem tsRenewables_iff (f : TsFile) (titles : List Tok) (r : TsResult) : tsRenewables f titles = .ok r ↔
    ∃ ps bs h, TsNamed f titles ps ∧ (∀ p ∈ ps, p.links ≠ []) ∧ 1 ≤ tsTotal TsProfile.period ps ∧ (∃ p, ps.head? = some p ∧ tsHours ⟨p.period, p.width, p.bus.length⟩ p.values = .ok h) ∧
      (∀ p ∈ ps, p.bus.length ≤ p.links.length) ∧ tsTotal (fun p => p.bus.length) ps + 1 ≤ tsTotal TsProfile.period ps ∧
      List.Forall₂ (fun p b => tsBlock p.size h p.values = .ok b) ps bs ∧
      r = ⟨(tsTotal TsProfile.period ps : Int) - 1, titles.length, tsTypeRows (-1) ps, (tsPeriods (ps.map (fun p => (⟨p.period, p.width, p.bus.length⟩ : TsSize)))).1, bs.flatten,
        ps.flatMap (fun p => p.bus) ++ List.replicate (tsTotal TsProfile.period ps - 1 - tsTotal (fun p => p.bus.length) ps) 0,
        tsLinkRows 0 ps ++ List.replicate (tsTotal TsProfile.period ps - 1 - tsTotal (fun p => p.bus.length) ps) 0, tsTotal TsProfile.width ps, h⟩ := by
  have hz : ∀ n z, tsZeros n = .ok z ↔ 0 ≤ n ∧ z = List.replicate n.toNat 0 := by
    intro n z
    unfold tsZeros
    by_cases hn : n < 0
    · rw [if_pos hn]
      constructor
      · intro h; cases h
      · rintro ⟨h, _⟩; omega
    · rw [if_neg hn]
      constructor
      · intro h
        injection h with h
        exact ⟨by omega, h.symm⟩
      · rintro ⟨_, rfl⟩; rfl
  have hh : ∀ ps, TsNamed f titles ps → ∀ h, tsFirstHours f titles (ps.map (fun p => (⟨p.period, p.width, p.bus.length⟩ : TsSize))) = .ok h ↔
      ∃ p, ps.head? = some p ∧ tsHours ⟨p.period, p.width, p.bus.length⟩ p.values = .ok h := by
    intro ps hps h
    cases hps with
    | nil =>
      constructor
      · intro hc; cases hc
      · rintro ⟨p, hp, _⟩; cases hp
    | cons hp hps =>
      rename_i t p titles ps
      show (tsGet f t >>= fun p' => tsHours ⟨p.period, p.width, p.bus.length⟩ p'.values) = .ok h ↔ _
      rw [except_bind_ok]
      constructor
      · rintro ⟨q, hq, hc⟩
        rw [tsGet_iff, hp] at hq
        injection hq with hq
        subst hq
        exact ⟨p, rfl, hc⟩
      · rintro ⟨q, hq, hc⟩
        injection hq with hq
        subst hq
        exact ⟨p, (tsGet_iff _ _ _).2 hp, hc⟩
  unfold tsRenewables
  rw [except_bind_ok]
  constructor
  · rintro ⟨a, ha, h⟩
    obtain ⟨ps, h1, h2, rfl⟩ := (tsFirst_fold f titles _ _).1 ha
    obtain ⟨z, hz1, h⟩ := except_bind_ok.1 h
    obtain ⟨hz2, rfl⟩ := (hz _ _).1 hz1
    obtain ⟨w, hw, h⟩ := except_bind_ok.1 h
    dsimp only at hw hz2 h
    rw [List.nil_append, hh ps h1] at hw
    obtain ⟨s, hs, h⟩ := except_bind_ok.1 h
    have e : ((-1 : Int) + (tsTotal TsProfile.period ps : Int)).toNat = tsTotal TsProfile.period ps - 1 := by omega
    rw [e, List.nil_append] at hs
    obtain ⟨h3, h4, bs, h5, h6⟩ := (tsLast_fold f w titles ps h1 [] [] [] (tsTotal TsProfile.period ps - 1) 0 s rfl).1 hs
    injection h with h
    refine ⟨ps, bs, w, h1, h2, by omega, hw, h3, by omega, h5, ?_⟩
    rw [← h, h6]
    simp only [List.nil_append, Nat.zero_add]
    congr 1
  · rintro ⟨ps, bs, w, h1, h2, h3, h4, h5, h6, h7, rfl⟩
    have e : ((-1 : Int) + (tsTotal TsProfile.period ps : Int)).toNat = tsTotal TsProfile.period ps - 1 := by omega
    refine ⟨_, (tsFirst_fold f titles _ _).2 ⟨ps, h1, h2, rfl⟩, except_bind_ok.2 ⟨_, (hz _ _).2 ⟨by dsimp only; omega, rfl⟩, except_bind_ok.2 ⟨w, ?_, ?_⟩⟩⟩
    · dsimp only
      rw [List.nil_append]
      exact (hh ps h1 w).2 h4
    · dsimp only
      rw [e, List.nil_append]
      refine except_bind_ok.2 ⟨_, (tsLast_fold f w titles ps h1 [] [] [] (tsTotal TsProfile.period ps - 1) 0 _ rfl).2 ⟨h5, by omega, bs, h7, rfl⟩, ?_⟩
      simp only [List.nil_append, Nat.zero_add]
      congr 2

theorem tsNamed_unique {f : TsFile} {titles : List Tok} {ps qs : List TsProfile} (h1 : TsNamed f titles ps) (h2 : TsNamed f titles qs) : ps = qs := by
  induction h1 generalizing qs with
  | nil => cases h2; rfl
  | cons hp _ ih =>
    cases h2 with
    | cons hq h2 =>
      rw [hp] at hq
      injection hq with hq
      rw [hq, ih h2]

theorem tsFlat_at {h : Nat} (pre : List TsProfile) (p : TsProfile) (post : List TsProfile) : ∀ (bs : List (List (List Rat))),
    List.Forall₂ (fun p b => tsBlock p.size h p.values = .ok b) (pre ++ p :: post) bs → ∃ b, tsBlock p.size h p.values = .ok b ∧
      ∀ i, i < p.size → bs.flatten[tsTotal TsProfile.size pre + i]? = b[i]? := by
  induction pre with
  | nil =>
    intro bs hb
    cases hb with
    | cons hb hrest =>
      rename_i b bs
      refine ⟨b, hb, ?_⟩
      intro i hi
      have := (tsBlock_ok _ _ _ _ hb).2.1
      simp only [tsTotal, List.map_nil, List.sum_nil, Nat.zero_add, List.flatten_cons]
      rw [List.getElem?_append_left (by omega)]
  | cons q pre ih =>
    intro bs hb
    cases hb with
    | cons hq hb =>
      rename_i c bs
      obtain ⟨b, h1, h2⟩ := ih bs hb
      refine ⟨b, h1, ?_⟩
      intro i hi
      have hc := (tsBlock_ok _ _ _ _ hq).2.1
      have e : tsTotal TsProfile.size (q :: pre) = q.size + tsTotal TsProfile.size pre := by simp [tsTotal]
      rw [List.flatten_cons, List.getElem?_append_right (by omega), ← h2 i hi]
      congr 1
      omega

theorem tsRead_iff (f : TsFile) (d : Option TsProfile) (r : TsResult) : tsRead f = .ok (some (d, r)) ↔ tsDemand f = .ok d ∧ tsTitles f ≠ [] ∧ tsRenewables f (tsTitles f) = .ok r := by
  unfold tsRead
  rw [except_bind_ok]
  constructor
  · rintro ⟨d', hd, h⟩
    by_cases ht : tsTitles f = []
    · rw [if_pos ht] at h
      injection h with h
      cases h
    · rw [if_neg ht] at h
      obtain ⟨r', hr, h⟩ := except_bind_ok.1 h
      injection h with h
      injection h with h
      injection h with h1 h2
      subst h1 h2
      exact ⟨hd, ht, hr⟩
  · rintro ⟨h1, h2, h3⟩
    refine ⟨d, h1, ?_⟩
    rw [if_neg h2]
    exact except_bind_ok.2 ⟨r, h3, rfl⟩

/-! ## C210: the profiles -/

/-- C210: the rows of the table of profiles that the tables of types and periods point to are those of the file: period `j` and link `l` of a profile `p` -/
theorem C210_profiles (f : TsFile) (d : Option TsProfile) (r : TsResult) (h : tsRead f = .ok (some (d, r))) (pre : List TsProfile) (p : TsProfile) (post : List TsProfile)
    (hn : TsNamed f (tsTitles f) (pre ++ p :: post)) :
    ∃ a e : Int, r.types[pre.length]? = some (a, e) ∧ e - a + 1 = p.period ∧ ∀ j : Nat, j < p.period → ∃ b c : Int,
      r.periods[(a + j).toNat]? = some (b, c) ∧ c - b + 1 = p.width ∧ ∀ l : Nat, l < p.width → ∃ row : List Rat,
        r.profs[(b + l).toNat]? = some row ∧ row.length = r.hours ∧ ∀ x, x < r.hours → row[x]? = tsCell p.size r.hours p.values (j * p.width + l) x := by
  obtain ⟨_, _, hr⟩ := (tsRead_iff _ _ _).1 h
  obtain ⟨ps, bs, w, h1, h2, h3, h4, h5, h6, h7, rfl⟩ := (tsRenewables_iff _ _ _).1 hr
  have := tsNamed_unique h1 hn
  subst this
  dsimp only
  refine ⟨_, _, tsTypeRows_at pre p post (-1), by ring, ?_⟩
  intro j hj
  have e1 : ((-1 : Int) + (tsTotal TsProfile.period pre : Int) + 1 + j).toNat = tsTotal TsProfile.period pre + j := by omega
  rw [e1]
  refine ⟨_, _, tsPeriods_at pre p post j hj, by ring, ?_⟩
  intro l hl
  have hsz : j * p.width + l < p.size := by
    unfold TsProfile.size
    calc j * p.width + l < j * p.width + p.width := by omega
      _ = (j + 1) * p.width := by ring
      _ ≤ p.period * p.width := Nat.mul_le_mul_right _ hj
  obtain ⟨b, hb1, hb2⟩ := tsFlat_at pre p post bs h7
  obtain ⟨_, hb3, hb4⟩ := tsBlock_ok _ _ _ _ hb1
  obtain ⟨row, hr1, hr2, hr3⟩ := hb4 _ hsz
  refine ⟨row, ?_, hr2, hr3⟩
  have e2 : ((tsTotal TsProfile.size pre : Int) + (j : Int) * (p.width : Int) + (l : Int)).toNat = tsTotal TsProfile.size pre + (j * p.width + l) := by
    have : (tsTotal TsProfile.size pre : Int) + (j : Int) * (p.width : Int) + (l : Int) = ((tsTotal TsProfile.size pre + (j * p.width + l) : Nat) : Int) := by push_cast; ring
    rw [this, Int.toNat_natCast]
  rw [e2, hb2 _ hsz, hr1]

/-- C210: the number of hours is that of the first profile: the number of its values if it has a single row, else the length of its first row -/
theorem C210_hours (f : TsFile) (d : Option TsProfile) (r : TsResult) (h : tsRead f = .ok (some (d, r))) (ps : List TsProfile) (hn : TsNamed f (tsTitles f) ps) :
    ∃ p, ps.head? = some p ∧
      (p.period * p.width = 1 → r.hours = match p.values with | .flat l => l.length | .rows l => l.length) ∧
      (p.period * p.width ≠ 1 → ∃ row rest, p.values = .rows (row :: rest) ∧ r.hours = row.length) := by
  obtain ⟨_, _, hr⟩ := (tsRead_iff _ _ _).1 h
  obtain ⟨qs, bs, w, h1, h2, h3, ⟨p, hp, h4⟩, h5, h6, h7, rfl⟩ := (tsRenewables_iff _ _ _).1 hr
  have := tsNamed_unique h1 hn
  subst this
  refine ⟨p, hp, ?_, ?_⟩
  · intro hs
    unfold tsHours at h4
    rw [if_pos hs] at h4
    cases hv : p.values with
    | flat l => rw [hv] at h4; injection h4 with h4; exact h4.symm
    | rows l => rw [hv] at h4; injection h4 with h4; exact h4.symm
  · intro hs
    unfold tsHours at h4
    rw [if_neg hs] at h4
    cases hv : p.values with
    | flat l =>
      rw [hv] at h4
      cases l <;> cases h4
    | rows l =>
      rw [hv] at h4
      cases l with
      | nil => cases h4
      | cons row rest => injection h4 with h4; exact ⟨row, rest, rfl, h4.symm⟩

/-- C210: there are no other rows -/
theorem C210_no_more (f : TsFile) (d : Option TsProfile) (r : TsResult) (h : tsRead f = .ok (some (d, r))) (ps : List TsProfile) (hn : TsNamed f (tsTitles f) ps) :
    r.types.length = ps.length ∧ r.periods.length = tsTotal TsProfile.period ps ∧ r.profs.length = tsTotal TsProfile.size ps ∧ r.noLink = tsTotal TsProfile.width ps ∧ r.noRESP = ps.length := by
  obtain ⟨_, _, hr⟩ := (tsRead_iff _ _ _).1 h
  obtain ⟨qs, bs, w, h1, h2, h3, h4, h5, h6, h7, rfl⟩ := (tsRenewables_iff _ _ _).1 hr
  have := tsNamed_unique h1 hn
  subst this
  refine ⟨tsTypeRows_length _ _, tsPeriods_length _, ?_, rfl, h1.length_eq⟩
  dsimp only
  clear h4 h5 h6 h1 hn h hr h2 h3
  induction h7 with
  | nil => rfl
  | cons hb _ ih =>
    have := (tsBlock_ok _ _ _ _ hb).2.1
    simp only [List.flatten_cons, List.length_append, tsTotal, List.map_cons, List.sum_cons] at ih ⊢
    rw [this]
    omega

/-! ## C211: the plants -/

/-- C211: plant `j` of a profile is at its bus; its link is numbered after the links of the profiles before it -/
theorem C211_plants (f : TsFile) (d : Option TsProfile) (r : TsResult) (h : tsRead f = .ok (some (d, r))) (pre : List TsProfile) (p : TsProfile) (post : List TsProfile)
    (hn : TsNamed f (tsTitles f) (pre ++ p :: post)) (j : Nat) (hj : j < p.bus.length) :
    r.bus[tsTotal (fun p => p.bus.length) pre + j]? = p.bus[j]? ∧ ∃ l, p.links[j]? = some l ∧ r.link[tsTotal (fun p => p.bus.length) pre + j]? = some (l + tsTotal TsProfile.width pre) := by
  obtain ⟨_, _, hr⟩ := (tsRead_iff _ _ _).1 h
  obtain ⟨ps, bs, w, h1, h2, h3, h4, h5, h6, h7, rfl⟩ := (tsRenewables_iff _ _ _).1 hr
  have := tsNamed_unique h1 hn
  subst this
  dsimp only
  have hlen : ∀ qs : List TsProfile, (qs.flatMap (fun p => p.bus)).length = tsTotal (fun p => p.bus.length) qs := by
    intro qs
    simp [tsTotal, List.length_flatMap]
  constructor
  · rw [List.getElem?_append_left (by rw [hlen]; simp [tsTotal]; omega), List.flatMap_append, List.flatMap_cons, List.getElem?_append_right (by rw [hlen]; omega), hlen,
      Nat.add_sub_cancel_left, List.getElem?_append_left hj]
  · have hl := h5 p (by simp)
    obtain ⟨l, hl2⟩ : ∃ l, p.links[j]? = some l := ⟨_, List.getElem?_eq_getElem (by omega)⟩
    refine ⟨l, hl2, ?_⟩
    have key := tsLinkRows_at pre p post h5 j hj 0
    rw [hl2] at key
    obtain ⟨hlt, _⟩ := List.getElem?_eq_some_iff.1 key
    rw [List.getElem?_append_left hlt, key]
    simp

/-! ## C212: the files that are accepted -/

/-- C212: a file with renewable sources is read exactly when all its titles are there, have links that cover their plants and values that fit, and there are fewer plants than periods in total -/
theorem C212_accepted_partial (f : TsFile) : (∃ r, tsRenewables f (tsTitles f) = .ok r) ↔
    ∃ ps h, TsNamed f (tsTitles f) ps ∧ (∀ p ∈ ps, p.links ≠ [] ∧ p.bus.length ≤ p.links.length ∧ TsFits p.size h p.values) ∧
      tsTotal (fun p => p.bus.length) ps < tsTotal TsProfile.period ps ∧ ∃ p, ps.head? = some p ∧ tsHours ⟨p.period, p.width, p.bus.length⟩ p.values = .ok h := by
  constructor
  · rintro ⟨r, hr⟩
    obtain ⟨ps, bs, w, h1, h2, h3, h4, h5, h6, h7, rfl⟩ := (tsRenewables_iff _ _ _).1 hr
    refine ⟨ps, w, h1, ?_, by omega, h4⟩
    intro p hp
    refine ⟨h2 p hp, h5 p hp, ?_⟩
    have : ∀ ps bs, List.Forall₂ (fun (p : TsProfile) b => tsBlock p.size w p.values = .ok b) ps bs → ∀ p ∈ ps, TsFits p.size w p.values := by
      intro ps bs hf
      induction hf with
      | nil => intro p hp; simp at hp
      | cons hb _ ih =>
        intro p hp
        rcases List.mem_cons.1 hp with rfl | hp
        · exact (tsBlock_ok _ _ _ _ hb).1
        · exact ih p hp
    exact this ps bs h7 p hp
  · rintro ⟨ps, w, h1, h2, h3, h4⟩
    have : ∀ ps : List TsProfile, (∀ p ∈ ps, TsFits p.size w p.values) → ∃ bs, List.Forall₂ (fun (p : TsProfile) b => tsBlock p.size w p.values = .ok b) ps bs := by
      intro ps
      induction ps with
      | nil => intro _; exact ⟨[], List.Forall₂.nil⟩
      | cons p ps ih =>
        intro hp
        obtain ⟨b, hb⟩ := tsBlock_exists _ _ _ (hp p (by simp))
        obtain ⟨bs, hbs⟩ := ih (fun q hq => hp q (by simp [hq]))
        exact ⟨b :: bs, List.Forall₂.cons hb hbs⟩
    obtain ⟨bs, hbs⟩ := this ps (fun p hp => (h2 p hp).2.2)
    exact ⟨_, (tsRenewables_iff _ _ _).2 ⟨ps, bs, w, h1, fun p hp => (h2 p hp).1, by omega, h4, fun p hp => (h2 p hp).2.1, h3, hbs, rfl⟩⟩

/-- C212, violated: a file in which every source has one period is never read if every source has a plant -/
theorem C212_violated_single (f : TsFile) (ps : List TsProfile) (hn : TsNamed f (tsTitles f) ps) (h1 : ∀ p ∈ ps, p.period = 1 ∧ 1 ≤ p.bus.length)
    (d : Option TsProfile) (r : TsResult) : tsRead f ≠ .ok (some (d, r)) := by
  intro h
  obtain ⟨_, _, hr⟩ := (tsRead_iff _ _ _).1 h
  obtain ⟨qs, w, h2, _, h3, _⟩ := (C212_accepted_partial f).1 ⟨r, hr⟩
  have := tsNamed_unique h2 hn
  subst this
  have : ∀ qs : List TsProfile, (∀ p ∈ qs, p.period = 1 ∧ 1 ≤ p.bus.length) → tsTotal TsProfile.period qs ≤ tsTotal (fun p => p.bus.length) qs := by
    intro qs
    induction qs with
    | nil => intro _; simp [tsTotal]
    | cons q qs ih =>
      intro hq
      have e1 := ih (fun p hp => hq p (by simp [hp]))
      have e2 := hq q (by simp)
      simp only [tsTotal, List.map_cons, List.sum_cons] at e1 ⊢
      omega
  have := this qs h1
  omega

/-- C212, violated: nothing is returned for a file that has only a demand -/
theorem C212_violated_demand (f : TsFile) (h : f.titles = ["Demand".toList]) (d : Option TsProfile) (r : TsResult) : tsRead f ≠ .ok (some (d, r)) := by
  intro hc
  refine ((tsRead_iff _ _ _).1 hc).2.1 ?_
  unfold tsTitles
  rw [h, List.erase_cons_head]

/-! ## witnesses -/

/-- two sources: two periods with two links, and two periods with one -/
def tsExample : TsFile := ⟨["Demand".toList, "PV".toList, "Wind".toList],
  [("Demand".toList, ⟨2, [], [], .rows [[1, 2], [3, 4]]⟩),
   ("PV".toList, ⟨2, [1, 2], [3, 4], .rows [[1, 2], [3, 4], [5, 6], [7, 8]]⟩),
   ("Wind".toList, ⟨2, [1], [7], .rows [[9, 10], [11, 12]]⟩)]⟩

example : (tsRead tsExample).toOption.join.map (·.2) = some ⟨3, 2, [(0, 1), (2, 3)], [(0, 1), (2, 3), (4, 4), (5, 5)],
    [[1, 2], [3, 4], [5, 6], [7, 8], [9, 10], [11, 12]], [3, 4, 7], [1, 2, 3], 3, 2⟩ := by decide +kernel

example : TsNamed tsExample (tsTitles tsExample) [⟨2, [1, 2], [3, 4], .rows [[1, 2], [3, 4], [5, 6], [7, 8]]⟩, ⟨2, [1], [7], .rows [[9, 10], [11, 12]]⟩] :=
  List.Forall₂.cons (by decide +kernel) (List.Forall₂.cons (by decide +kernel) List.Forall₂.nil)

/-- one source with one period and one plant -/
def tsSingle : TsFile := ⟨["PV".toList], [("PV".toList, ⟨1, [1], [3], .flat [1, 2]⟩)]⟩

example : tsRead tsSingle = .error .index := by decide +kernel
example : tsRead ⟨["Demand".toList], [("Demand".toList, ⟨1, [], [], .rows [[1]]⟩)]⟩ = .ok none := by decide +kernel
example : (tsRead ⟨["PV".toList], []⟩).toOption = none := by decide +kernel

end Pyensys
