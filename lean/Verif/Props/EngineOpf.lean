import Verif.Props.EngineNet
import Mathlib.Tactic.NormNum
/-!
# The optimal power flow of the compiled engine (C202): rows and objective
-/

namespace Pyensys

/-! ## sums -/

theorem sum_range_opt {α : Type} (l : List α) (f : α → ℚ) : (l.map f).sum = ((List.range l.length).map (fun i => (l[i]?.map f).getD 0)).sum := by
  have : l.map f = (List.range l.length).map (fun i => (l[i]?.map f).getD 0) := by
    apply List.ext_getElem?
    intro i
    rw [List.getElem?_map, List.getElem?_map]
    by_cases h : i < l.length
    · rw [List.getElem?_range h, List.getElem?_eq_getElem h]
      simp [List.getElem?_eq_getElem h]
    · rw [List.getElem?_eq_none (by omega), List.getElem?_eq_none (by simpa using h)]
      rfl
  rw [← this]

/-- what an entry of the matrix adds to a row -/
def cWeight (p : CProb) (s : CWhen) (x : CId → Rat) (r : CId) (e : CElem) : Rat := if (decide (e.row = r) && cActive p (cSub s) e.col) = true then e.val * x e.col else 0

theorem cRowValue_eq (p : CProb) (s : CWhen) (x : CId → Rat) (r : CId) : cRowValue p (cSub s) x r = (p.elems.map (cWeight p s x r)).sum := by
  unfold cRowValue
  rw [sum_filter_ifE]
  rfl

theorem cWeight_ne {p : CProb} {s : CWhen} {x : CId → Rat} {r : CId} {e : CElem} (h : e.row ≠ r) : cWeight p s x r e = 0 := by
  unfold cWeight
  rw [if_neg]
  simp [h]

theorem cWeight_mk {p : CProb} {s : CWhen} {x : CId → Rat} {r : CId} (v : Rat) (c : CId) : cWeight p s x r ⟨v, r, c⟩ = if cActive p (cSub s) c = true then v * x c else 0 := by
  unfold cWeight
  simp

theorem cWeight_all_ne {p : CProb} {s : CWhen} {x : CId → Rat} {r : CId} {l : List CElem} (h : ∀ e ∈ l, e.row ≠ r) : (l.map (cWeight p s x r)).sum = 0 :=
  sum_zero' _ _ (fun e he => cWeight_ne (h e he))

/-- of the entries of all periods, those of the period count -/
theorem cWeight_period {p : CProb} {s : CWhen} {x : CId → Rat} {r : CId} {subs : List CWhen} (hs : s ∈ subs) (hn : subs.Nodup) (f : CWhen → CElem) (hf : ∀ t, t ≠ s → (f t).row ≠ r) :
    ((subs.map f).map (cWeight p s x r)).sum = cWeight p s x r (f s) := by
  rw [List.map_map]
  exact sum_single' _ _ s hs hn (fun t _ ht => cWeight_ne (hf t ht))

/-! ## the parts of the matrix -/

/-- the entries of the balance of a bus -/
structure CBal (subs : List CWhen) (vs : List CVertex) (numbers : List Int) (q : CVertex × Nat) (l : List CElem) : Prop where
  out : ∃ (bus : Nat) (row : List Rat), (cOf cIsBus vs)[bus]? = some q ∧ ((cNext vs q.2).filter (fun t => cIsBranch t.1)).foldlM (fun row t => cSusceptance numbers bus row t.1) (List.replicate numbers.length 0) = .ok row ∧
    ∃ y : CVertex × Nat → Rat, (∀ (i : Nat) (m : CVertex × Nat), (cOf cIsBus vs)[i]? = some m → y m = row[i]?.getD 0) ∧
    l = (((cNext vs q.2).filter (fun t => cIsGen t.1)).flatMap (fun t => subs.map (fun s => ⟨1, ⟨q.2, "active power balance".toList, cExtra s⟩, ⟨t.2, "active power generation".toList, cExtra s⟩⟩)))
      ++ (cOf cIsBus vs).flatMap (fun m => if y m ≠ 0 then subs.map (fun s => (⟨y m, ⟨q.2, "active power balance".toList, cExtra s⟩, ⟨m.2, "voltage angle".toList, cExtra s⟩⟩ : CElem)) else [])
      ++ subs.flatMap (fun s => [⟨1, ⟨q.2, "active power balance".toList, cExtra s⟩, ⟨q.2, "load curtailment".toList, cExtra s⟩⟩,
        ⟨-1, ⟨q.2, "active power balance".toList, cExtra s⟩, ⟨q.2, "generation curtailment".toList, cExtra s⟩⟩])

theorem cBalance_parts {subs : List CWhen} {vs : List CVertex} (hnet : CNetOk vs) {numbers : List Int} (hnum : cNumbers vs = .ok numbers) {q : CVertex × Nat} (hq : q ∈ cOf cIsBus vs) {l : List CElem} (h : cBalance subs vs numbers q = .ok l) : CBal subs vs numbers q l := by
  unfold cBalance at h
  obtain ⟨number, h1, h⟩ := (bindE_iff _ _ _).1 h
  obtain ⟨bus, h2, h⟩ := (bindE_iff _ _ _).1 h
  obtain ⟨row, h3, h⟩ := (bindE_iff _ _ _).1 h
  obtain ⟨angles, h4, h⟩ := (bindE_iff _ _ _).1 h
  have e := (Except.ok.inj h).symm
  have hno : cNo q.1 = .int number := (getInt_iff _ _).1 h1
  obtain ⟨q', hq1, hq2⟩ := (cPlace_spec hnet hnum number bus).1 h2
  have : q' = q := List.inj_on_of_nodup_map hnet.numbers (List.mem_of_getElem? hq1) hq (hq2.trans hno.symm)
  subst this
  obtain ⟨a1, a2⟩ := mapE_okD h4 []
  let y : CVertex × Nat → Rat := fun m => row[okD (((cGetChar m.1.chars "number".toList).value.getInt) >>= fun k => cPlace numbers k) 0]?.getD 0
  have hm : ∀ m ∈ cOf cIsBus vs, ∃ k, cNo m.1 = .int k ∧ ∃ i, cPlace numbers k = .ok i := by
    intro m hm
    obtain ⟨i, hi⟩ := List.getElem?_of_mem hm
    obtain ⟨k, _, hk⟩ := (cNumbers_spec hnum).2 i m hi
    exact ⟨k, hk, i, (cPlace_spec hnet hnum k i).2 ⟨m, hi, hk⟩⟩
  have hy : ∀ (i : Nat) (m : CVertex × Nat), (cOf cIsBus vs)[i]? = some m → y m = row[i]?.getD 0 := by
    intro i m hi
    obtain ⟨k, _, hk⟩ := (cNumbers_spec hnum).2 i m hi
    have hp := (cPlace_spec hnet hnum k i).2 ⟨m, hi, hk⟩
    have : (((cGetChar m.1.chars "number".toList).value.getInt) >>= fun k => cPlace numbers k) = .ok i := by
      rw [bindE_iff]
      exact ⟨k, (getInt_iff _ _).2 hk, hp⟩
    show row[okD _ 0]?.getD 0 = _
    rw [okD_ok this]
  refine ⟨bus, row, hq1, h3, y, hy, ?_⟩
  rw [e]
  congr 2
  rw [a2, List.flatMap_def]
  congr 1
  apply List.map_congr_left
  intro m hmm
  obtain ⟨k, hk, i, hi⟩ := hm m hmm
  obtain ⟨m', hm1, hm2⟩ := (cPlace_spec hnet hnum k i).1 hi
  have : m' = m := List.inj_on_of_nodup_map hnet.numbers (List.mem_of_getElem? hm1) hmm (hm2.trans hk.symm)
  subst this
  rw [hy i m' hm1]
  apply okD_ok
  rw [bindE_iff]
  refine ⟨k, (getInt_iff _ _).2 hk, ?_⟩
  rw [bindE_iff]
  exact ⟨i, hi, rfl⟩

/-- the entries of the cost of a generator -/
theorem cPieces_rows {subs : List CWhen} {rows : List CRow} {q : CVertex × Nat} {l : List CElem} (h : cPieces subs rows q = .ok l) : ∀ e ∈ l, e.row.name = "piecewise generation cost".toList ∧ e.row.node = q.2 := by
  unfold cPieces at h
  obtain ⟨info, h1, h⟩ := (bindE_iff _ _ _).1 h
  cases info with
  | none => cases h; simp
  | some i =>
    obtain ⟨slopes, h2, h⟩ := (bindE_iff _ _ _).1 h
    obtain ⟨m, h3, h⟩ := (bindE_iff _ _ _).1 h
    cases h
    obtain ⟨a1, a2⟩ := mapE_okD h3 []
    intro e he
    rw [List.mem_flatten] at he
    obtain ⟨b, hb, he⟩ := he
    rw [a2, List.map_map, List.mem_map] at hb
    obtain ⟨s, hs, rfl⟩ := hb
    obtain ⟨b1, b2⟩ := mapE_okD (a1 s hs) []
    rw [Function.comp_apply, b2, List.mem_flatten] at he
    obtain ⟨c, hc, he⟩ := he
    rw [List.mem_map] at hc
    obtain ⟨z, hz, rfl⟩ := hc
    have hz' := b1 z hz
    by_cases hc : (rows.any fun r => decide (r.id = cPieceId q.2 s z.2)) = true
    · rw [if_pos hc] at he
      change e ∈ [_, _] at he
      rcases List.mem_cons.1 he with rfl | he
      · exact ⟨rfl, rfl⟩
      · rw [List.mem_singleton] at he
        subst he
        exact ⟨rfl, rfl⟩
    · rw [if_neg hc] at hz'
      cases hz'

theorem cPieces_eq {subs : List CWhen} {rows : List CRow} {q : CVertex × Nat} {l : List CElem} {i : CInfo} (hi : cFetch q.1 "cost function".toList [] = .one i) (h : cPieces subs rows q = .ok l) :
    ∃ slopes, cRowSlopes i = .ok slopes ∧ l = subs.flatMap (fun s => slopes.zipIdx.flatMap (fun z => [⟨z.1, cPieceId q.2 s z.2, ⟨q.2, "active power generation".toList, cExtra s⟩⟩, ⟨-1, cPieceId q.2 s z.2, ⟨q.2, "active power generation cost".toList, cExtra s⟩⟩])) := by
  unfold cPieces at h
  obtain ⟨info, h1, h⟩ := (bindE_iff _ _ _).1 h
  unfold cSlopeInfo at h1
  rw [hi] at h1
  cases h1
  obtain ⟨slopes, h2, h⟩ := (bindE_iff _ _ _).1 h
  obtain ⟨m, h3, h⟩ := (bindE_iff _ _ _).1 h
  refine ⟨slopes, h2, ?_⟩
  cases h
  obtain ⟨a1, a2⟩ := mapE_okD h3 []
  rw [a2, List.map_map, List.flatMap_def]
  congr 1
  apply List.map_congr_left
  intro s hs
  obtain ⟨b1, b2⟩ := mapE_okD (a1 s hs) []
  rw [Function.comp_apply, b2, List.flatMap_def]
  congr 1
  apply List.map_congr_left
  intro z hz
  have hz' := b1 z hz
  by_cases hc : (rows.any fun r => decide (r.id = cPieceId q.2 s z.2)) = true
  · rw [if_pos hc]
    rfl
  · rw [if_neg hc] at hz'
    cases hz'

/-- the matrix -/
structure CMat (subs : List CWhen) (vs : List CVertex) (p : CProb) (numbers : List Int) : Prop where
  num : cNumbers vs = .ok numbers
  bal : ∀ q ∈ cOf cIsBus vs, cBalance subs vs numbers q = .ok (okD (cBalance subs vs numbers q) [])
  pie : ∀ q ∈ cOf cIsGen vs, cPieces subs p.rows q = .ok (okD (cPieces subs p.rows q) [])
  elems : p.elems = (cOf cIsBus vs).flatMap (fun q => okD (cBalance subs vs numbers q) []) ++ (cOf cIsGen vs).flatMap (fun q => okD (cPieces subs p.rows q) []) ++ (cOf cIsBranch vs).flatMap (fun q => cAngles subs vs q.2)

theorem cMat_of {subs : List CWhen} {vs : List CVertex} {p : CProb} (hp : CParts subs vs p) : ∃ numbers, CMat subs vs p numbers := by
  have h := hp.elems
  unfold cElems at h
  obtain ⟨numbers, h1, h⟩ := (bindE_iff _ _ _).1 h
  obtain ⟨b, h2, h⟩ := (bindE_iff _ _ _).1 h
  obtain ⟨g, h3, h⟩ := (bindE_iff _ _ _).1 h
  obtain ⟨a1, a2⟩ := mapE_okD h2 []
  obtain ⟨b1, b2⟩ := mapE_okD h3 []
  refine ⟨numbers, h1, a1, b1, ?_⟩
  rw [← Except.ok.inj h, a2, b2]
  rfl

theorem cBalance_rows {subs : List CWhen} {vs : List CVertex} (hnet : CNetOk vs) {numbers : List Int} (hnum : cNumbers vs = .ok numbers) {q : CVertex × Nat} (hq : q ∈ cOf cIsBus vs) {l : List CElem} (h : cBalance subs vs numbers q = .ok l) :
    ∀ e ∈ l, e.row.name = "active power balance".toList ∧ e.row.node = q.2 := by
  obtain ⟨bus, row, _, _, y, _, rfl⟩ := (cBalance_parts hnet hnum hq h).out
  intro e he
  rw [List.mem_append, List.mem_append] at he
  rcases he with (he | he) | he
  · rw [List.mem_flatMap] at he
    obtain ⟨t, _, he⟩ := he
    rw [List.mem_map] at he
    obtain ⟨s, _, rfl⟩ := he
    exact ⟨rfl, rfl⟩
  · rw [List.mem_flatMap] at he
    obtain ⟨t, _, he⟩ := he
    split at he
    · rw [List.mem_map] at he
      obtain ⟨s, _, rfl⟩ := he
      exact ⟨rfl, rfl⟩
    · cases he
  · rw [List.mem_flatMap] at he
    obtain ⟨t, _, he⟩ := he
    rcases List.mem_cons.1 he with rfl | he
    · exact ⟨rfl, rfl⟩
    · rw [List.mem_singleton] at he
      subst he
      exact ⟨rfl, rfl⟩

theorem cAngles_rows {subs : List CWhen} {vs : List CVertex} {n : Nat} : ∀ e ∈ cAngles subs vs n, e.row.name = "angular difference".toList ∧ e.row.node = n := by
  intro e he
  unfold cAngles at he
  dsimp only at he
  rw [List.mem_flatMap] at he
  obtain ⟨t, _, he⟩ := he
  rw [List.mem_map] at he
  obtain ⟨s, _, rfl⟩ := he
  exact ⟨rfl, rfl⟩

theorem cName1 : "active power balance".toList ≠ "piecewise generation cost".toList := by decide +kernel
theorem cName2 : "active power balance".toList ≠ "angular difference".toList := by decide +kernel
theorem cName3 : "piecewise generation cost".toList ≠ "angular difference".toList := by decide +kernel

/-- only the block of the row counts -/
theorem cBlock {α : Type} {p : CProb} {s : CWhen} {x : CId → Rat} {r : CId} (L : List α) (f : α → List CElem) (a : α) (ha : a ∈ L) (hn : L.Nodup) (h : ∀ b ∈ L, b ≠ a → ∀ e ∈ f b, e.row ≠ r) :
    ((L.flatMap f).map (cWeight p s x r)).sum = ((f a).map (cWeight p s x r)).sum := by
  rw [sum_flatMapE]
  exact sum_single' _ _ a ha hn (fun b hb hba => cWeight_all_ne (h b hb hba))

theorem cBlock_none {α : Type} {p : CProb} {s : CWhen} {x : CId → Rat} {r : CId} (L : List α) (f : α → List CElem) (h : ∀ b ∈ L, ∀ e ∈ f b, e.row ≠ r) :
    ((L.flatMap f).map (cWeight p s x r)).sum = 0 := by
  rw [sum_flatMapE]
  exact sum_zero' _ _ (fun b hb => cWeight_all_ne (h b hb))

/-- the value of the balance of a bus -/
theorem cBalance_value {subs : List CWhen} {vs : List CVertex} {p : CProb} (hp : CParts subs vs p) (hnet : CNetOk vs) (hn : subs.Nodup) {s : CWhen} (hs : s ∈ subs) (x : CId → Rat) {q : CVertex × Nat} (hq : q ∈ cOf cIsBus vs) :
    cRowValue p (cSub s) x ⟨q.2, "active power balance".toList, cExtra s⟩ =
      cOutput vs s x q.1 + cInflow vs s x q.1 + x ⟨q.2, "load curtailment".toList, cExtra s⟩ - x ⟨q.2, "generation curtailment".toList, cExtra s⟩ := by
  obtain ⟨numbers, hm⟩ := cMat_of hp
  have hper : ∀ t : CWhen, t ≠ s → (⟨q.2, "active power balance".toList, cExtra t⟩ : CId) ≠ ⟨q.2, "active power balance".toList, cExtra s⟩ := by
    intro t ht hc
    injection hc with _ _ h3
    exact ht (cExtra_inj h3)
  rw [cRowValue_eq, hm.elems, List.map_append, List.map_append, List.sum_append, List.sum_append]
  rw [cBlock_none (cOf cIsGen vs), cBlock_none (cOf cIsBranch vs), add_zero, add_zero, cBlock (cOf cIsBus vs) _ q hq (cOf_nodup _ _)]
  rotate_left
  · intro b hb hne e he hrow
    have := (cBalance_rows hnet hm.num hb (hm.bal b hb) e he).2
    rw [hrow] at this
    exact hne (cOf_inj hb hq this.symm)
  · intro b hb e he hrow
    have := (cAngles_rows e he).1
    rw [hrow] at this
    exact cName2 this
  · intro b hb e he hrow
    have := (cPieces_rows (hm.pie b hb) e he).1
    rw [hrow] at this
    exact cName1 this
  obtain ⟨bus, row, hbus, hrow, y, hy, hl⟩ := (cBalance_parts hnet hm.num hq (hm.bal q hq)).out
  rw [hl, List.map_append, List.map_append, List.sum_append, List.sum_append]
  have hb1 := (cOf_mem.1 hq).2
  -- generators
  have e1 : ((((cNext vs q.2).filter (fun t => cIsGen t.1)).flatMap (fun t => subs.map (fun s => (⟨1, ⟨q.2, "active power balance".toList, cExtra s⟩, ⟨t.2, "active power generation".toList, cExtra s⟩⟩ : CElem)))).map (cWeight p s x ⟨q.2, "active power balance".toList, cExtra s⟩)).sum = cOutput vs s x q.1 := by
    rw [sum_flatMapE]
    have hlist : (cNext vs q.2).filter (fun t => cIsGen t.1) = (cOf cIsGen vs).filter (fun g => decide (cNo g.1 = cNo q.1)) := by
      rw [cNext_eq hnet hq, cOf, List.filter_filter, List.filter_filter]
      apply List.filter_congr
      intro t _
      by_cases h1 : cIsGen t.1 = true
      · have h2 : ¬ cIsBranch t.1 = true := fun h => (cKind t.1).2.2 ⟨h1, h⟩
        simp [h1, h2]
      · simp [h1]
    rw [hlist]
    unfold cOutput
    have hfil : (cOf cIsGen vs).filter (fun g => decide (cNo g.1 = cNo q.1) && cOn g.1 s) = ((cOf cIsGen vs).filter (fun g => decide (cNo g.1 = cNo q.1))).filter (fun g => cOn g.1 s) := by
      rw [List.filter_filter]
      apply List.filter_congr
      intro t _
      rw [Bool.and_comm]
    rw [hfil, sum_filter_ifE (fun g : CVertex × Nat => cOn g.1 s)]
    apply sum_congr'
    intro t ht
    have htg : t ∈ cOf cIsGen vs := (List.mem_filter.1 ht).1
    rw [cWeight_period hs hn _ (fun u hu => hper u hu), cWeight_mk]
    rw [(cActive_gen hp htg hs).1, one_mul]
  -- angles
  have e2 : (((cOf cIsBus vs).flatMap (fun m => if y m ≠ 0 then subs.map (fun s => (⟨y m, ⟨q.2, "active power balance".toList, cExtra s⟩, ⟨m.2, "voltage angle".toList, cExtra s⟩⟩ : CElem)) else [])).map (cWeight p s x ⟨q.2, "active power balance".toList, cExtra s⟩)).sum = cInflow vs s x q.1 := by
    have hadj : (cNext vs q.2).filter (fun t => cIsBranch t.1) = (cOf cIsBranch vs).filter (fun l => decide (cFrom l.1 = cNo q.1) || decide (cTo l.1 = cNo q.1)) := by
      rw [cNext_eq hnet hq, cOf, List.filter_filter, List.filter_filter]
      apply List.filter_congr
      intro t _
      by_cases h1 : cIsBranch t.1 = true
      · have h2 : ¬ cIsGen t.1 = true := fun h => (cKind t.1).2.2 ⟨h, h1⟩
        simp [h1, h2]
      · simp [h1]
    have hlen : (List.replicate numbers.length (0 : Rat)).length = (cOf cIsBus vs).length := by rw [List.length_replicate, (cNumbers_spec hm.num).1]
    rw [hadj] at hrow
    obtain ⟨f1, f2⟩ := cSusceptance_fold hnet hm.num s x hbus _ _ _ (by
      intro l hl
      have := List.mem_filter.1 hl
      refine ⟨this.1, ?_⟩
      simpa using this.2) hlen hrow
    have hzero : cDot (cT vs s x) (List.replicate numbers.length (0 : Rat)) = 0 := by
      unfold cDot
      apply sum_zero'
      intro i _
      rw [List.getElem?_replicate]
      split <;> simp
    rw [hzero, zero_add] at f2
    have hin : cInflow vs s x q.1 = (((cOf cIsBranch vs).filter (fun l => decide (cFrom l.1 = cNo q.1) || decide (cTo l.1 = cNo q.1))).map (fun l => cShare vs s x q.1 l.1)).sum := by
      rw [sum_filter_ifE]
      unfold cInflow
      apply sum_congr'
      intro l _
      by_cases h : (decide (cFrom l.1 = cNo q.1) || decide (cTo l.1 = cNo q.1)) = true
      · rw [if_pos h]
        rfl
      · rw [if_neg h]
        simp only [Bool.or_eq_true, decide_eq_true_iff, not_or] at h
        rw [if_neg h.1, if_neg h.2]
        simp
    rw [hin, ← f2, sum_flatMapE, sum_range_opt]
    unfold cDot
    rw [f1, hlen]
    apply sum_congr'
    intro i hi
    have hi' := List.mem_range.1 hi
    have hmi := List.getElem?_eq_getElem hi'
    have hmem : (cOf cIsBus vs)[i] ∈ cOf cIsBus vs := List.getElem_mem hi'
    rw [(cTheta_eq hnet s x hmi).2]
    rw [hmi]
    simp only [Option.map_some, Option.getD_some]
    rw [hy i _ hmi]
    by_cases hz : row[i]?.getD 0 ≠ 0
    · rw [if_pos hz, cWeight_period hs hn _ (fun u hu => hper u hu), cWeight_mk]
      rw [if_pos (cActive_bus hp hmem hs (Or.inl rfl))]
    · rw [if_neg hz]
      push Not at hz
      rw [hz]
      simp
  -- curtailments
  have e3 : ((subs.flatMap (fun s => [(⟨1, ⟨q.2, "active power balance".toList, cExtra s⟩, ⟨q.2, "load curtailment".toList, cExtra s⟩⟩ : CElem),
        ⟨-1, ⟨q.2, "active power balance".toList, cExtra s⟩, ⟨q.2, "generation curtailment".toList, cExtra s⟩⟩])).map (cWeight p s x ⟨q.2, "active power balance".toList, cExtra s⟩)).sum =
        x ⟨q.2, "load curtailment".toList, cExtra s⟩ - x ⟨q.2, "generation curtailment".toList, cExtra s⟩ := by
    rw [cBlock subs _ s hs hn]
    · simp only [List.map_cons, List.map_nil, List.sum_cons, List.sum_nil]
      rw [cWeight_mk, cWeight_mk]
      rw [if_pos (cActive_bus hp hq hs (Or.inr (Or.inl rfl))), if_pos (cActive_bus hp hq hs (Or.inr (Or.inr rfl)))]
      ring
    · intro t _ ht e he hc
      apply hper t ht
      rcases List.mem_cons.1 he with rfl | he
      · exact hc
      · rw [List.mem_singleton] at he
        subst he
        exact hc
  rw [e1, e2, e3]
  ring

/-! ## cost rows -/

theorem cPieceId_inj {n : Nat} {s t : CWhen} {j k : Nat} (h : cPieceId n s j = cPieceId n t k) : s = t ∧ j = k := by
  unfold cPieceId at h
  injection h with _ _ h3
  have := List.append_inj' h3 rfl
  refine ⟨cExtra_inj this.1, ?_⟩
  have h4 := List.cons.inj this.2
  have h5 := congrArg CChar.value h4.1
  dsimp only at h5
  injection h5 with h6
  exact_mod_cast h6

/-- the value of a row of a cost -/
theorem cPiece_value {subs : List CWhen} {vs : List CVertex} {p : CProb} (hp : CParts subs vs p) (hnet : CNetOk vs) (hn : subs.Nodup) {s : CWhen} (hs : s ∈ subs) (x : CId → Rat) {q : CVertex × Nat} (hq : q ∈ cOf cIsGen vs)
    {i : CInfo} (hi : cFetch q.1 "cost function".toList [] = .one i) {k : Nat} {sl : Rat} {slopes : List Rat} (hsl : cRowSlopes i = .ok slopes) (hk : slopes[k]? = some sl) (hon : cOn q.1 s = true) :
    cRowValue p (cSub s) x (cPieceId q.2 s k) = sl * x ⟨q.2, "active power generation".toList, cExtra s⟩ - x ⟨q.2, "active power generation cost".toList, cExtra s⟩ := by
  obtain ⟨numbers, hm⟩ := cMat_of hp
  rw [cRowValue_eq, hm.elems, List.map_append, List.map_append, List.sum_append, List.sum_append]
  rw [cBlock_none (cOf cIsBus vs), cBlock_none (cOf cIsBranch vs), add_zero, zero_add, cBlock (cOf cIsGen vs) _ q hq (cOf_nodup _ _)]
  rotate_left
  · intro b hb hne e he hrow
    have := (cPieces_rows (hm.pie b hb) e he).2
    rw [hrow] at this
    exact hne (cOf_inj hb hq this.symm)
  · intro b hb e he hrow
    have := (cAngles_rows e he).1
    rw [hrow] at this
    exact cName3 this
  · intro b hb e he hrow
    have := (cBalance_rows hnet hm.num hb (hm.bal b hb) e he).1
    rw [hrow] at this
    exact cName1 this.symm
  obtain ⟨slopes', h1, h2⟩ := cPieces_eq hi (hm.pie q hq)
  rw [hsl] at h1
  cases h1
  rw [h2, cBlock subs _ s hs hn, cBlock slopes.zipIdx _ (sl, k) (List.mem_zipIdx_iff_getElem?.2 hk)]
  · simp only [List.map_cons, List.map_nil, List.sum_cons, List.sum_nil]
    rw [cWeight_mk, cWeight_mk]
    have ha := cActive_gen hp hq hs
    rw [ha.1, ha.2 (by rw [hi]; simp), hon]
    simp
    ring
  · have : (slopes.zipIdx.map (·.2)).Nodup := by
      rw [List.zipIdx_map_snd]
      exact List.nodup_range'
    exact List.Nodup.of_map _ this
  · intro z hz hne e he hc
    have : cPieceId q.2 s z.2 = cPieceId q.2 s k := by
      rcases List.mem_cons.1 he with rfl | he
      · exact hc
      · rw [List.mem_singleton] at he
        subst he
        exact hc
    have h3 := (cPieceId_inj this).2
    apply hne
    rw [List.mem_zipIdx_iff_getElem?, h3, hk] at hz
    exact Prod.ext (Option.some.inj hz).symm h3
  · intro t _ hne e he hc
    rw [List.mem_flatMap] at he
    obtain ⟨z, _, he⟩ := he
    have : cPieceId q.2 t z.2 = cPieceId q.2 s k := by
      rcases List.mem_cons.1 he with rfl | he
      · exact hc
      · rw [List.mem_singleton] at he
        subst he
        exact hc
    exact hne (cPieceId_inj this).1

/-! ## angular differences -/

/-- a branch has two ends -/
theorem cBoth_two {vs : List CVertex} (hnet : CNetOk vs) {l : CVertex × Nat} (hl : l ∈ cOf cIsBranch vs) : ∃ a b, a ∈ cOf cIsBus vs ∧ b ∈ cOf cIsBus vs ∧ cNo a.1 = cFrom l.1 ∧ cNo b.1 = cTo l.1 ∧ (cBoth vs l.1 = [a, b] ∨ cBoth vs l.1 = [b, a]) := by
  obtain ⟨hne, ⟨a, ha, ha'⟩, ⟨b, hb, hb'⟩⟩ := hnet.ends l hl
  refine ⟨a, b, ha, hb, ha', hb', ?_⟩
  have hab : a ≠ b := by
    rintro rfl
    exact hne (ha'.symm.trans hb')
  have hnd : (cBoth vs l.1).Nodup := by
    have := (List.filter_sublist (p := cEndAt l.1) (l := vs.zipIdx)).map (·.2)
    exact List.Nodup.of_map _ (this.nodup (zipIdx_keysE vs))
  have hmem : ∀ r, r ∈ cBoth vs l.1 ↔ r ∈ [a, b] := by
    intro r
    rw [cBoth_mem]
    simp only [List.mem_cons, List.not_mem_nil, or_false]
    constructor
    · rintro ⟨h1, h2 | h2⟩
      · exact Or.inl (List.inj_on_of_nodup_map hnet.numbers h1 ha (h2.symm.trans ha'.symm))
      · exact Or.inr (List.inj_on_of_nodup_map hnet.numbers h1 hb (h2.symm.trans hb'.symm))
    · rintro (rfl | rfl)
      · exact ⟨ha, Or.inl ha'.symm⟩
      · exact ⟨hb, Or.inr hb'.symm⟩
  have hperm : (cBoth vs l.1).Perm [a, b] := (List.perm_ext_iff_of_nodup hnd (by simp [hab])).2 hmem
  have hlen := hperm.length_eq
  match hB : cBoth vs l.1, hlen with
  | [u, v], _ =>
    rw [hB] at hnd hmem
    have hu := (hmem u).1 (by simp)
    have hv := (hmem v).1 (by simp)
    have huv : u ≠ v := by simpa using hnd
    simp only [List.mem_cons, List.not_mem_nil, or_false] at hu hv
    rcases hu with rfl | rfl <;> rcases hv with rfl | rfl
    · exact absurd rfl huv
    · exact Or.inl rfl
    · exact Or.inr rfl
    · exact absurd rfl huv

/-- the edges to a branch -/
theorem cEdges_to {vs : List CVertex} (hnet : CNetOk vs) {l : CVertex × Nat} (hl : l ∈ cOf cIsBranch vs) : (cEdges vs).filter (fun e => decide (e.2 = l.2)) = (cBoth vs l.1).map (fun r => (r.2, l.2)) := by
  rw [cEdges_eq hnet, filter_flatMap']
  have hz : l ∈ vs.zipIdx := (List.mem_filter.1 hl).1
  have hbr := (cOf_mem.1 hl).2
  have hng : ¬ cIsGen l.1 = true := fun h => (cKind l.1).2.2 ⟨h, hbr⟩
  have key : ∀ q ∈ vs.zipIdx, (if cIsGen q.1 = true then cHome vs q.1 q.2 else if cIsBranch q.1 = true then (cBoth vs q.1).map (fun r => (r.2, q.2)) else []).filter (fun e => decide (e.2 = l.2)) = if decide (q.2 = l.2) = true then (cBoth vs l.1).map (fun r => (r.2, l.2)) else [] := by
    intro q hq
    by_cases h : q.2 = l.2
    · rw [if_pos (c := decide (q.2 = l.2) = true) (by simp [h])]
      have hql : q = l := by
        rw [List.mem_zipIdx_iff_getElem?] at hq hz
        rw [h, hz] at hq
        exact Prod.ext (Option.some.inj hq).symm h
      subst hql
      rw [if_neg hng, if_pos hbr, List.filter_eq_self]
      intro e he
      rw [List.mem_map] at he
      obtain ⟨r, _, rfl⟩ := he
      simp
    · rw [if_neg (c := decide (q.2 = l.2) = true) (by simp [h]), List.filter_eq_nil_iff]
      intro e he
      have : e.2 = q.2 := by
        split at he
        · unfold cHome at he
          split at he
          · rw [List.mem_singleton] at he; rw [he]
          · cases he
        · split at he
          · rw [List.mem_map] at he
            obtain ⟨r, _, rfl⟩ := he
            rfl
          · cases he
      rw [this]
      simpa using h
  rw [List.flatMap_def, List.map_congr_left key, ← List.flatMap_def]
  have e : vs.zipIdx.flatMap (fun q => if decide (q.2 = l.2) = true then (cBoth vs l.1).map (fun r => (r.2, l.2)) else []) = (vs.zipIdx.filter (fun q => decide (q.2 = l.2))).flatMap (fun _ => (cBoth vs l.1).map (fun r => (r.2, l.2))) := by
    generalize (cBoth vs l.1).map (fun r => (r.2, l.2)) = B
    generalize vs.zipIdx = Z
    induction Z with
    | nil => rfl
    | cons a Z ih =>
      rw [List.flatMap_cons, ih, List.filter_cons]
      split <;> simp
  rw [e, filter_keyE _ (zipIdx_keysE vs) l hz]
  simp

/-- the value of the row of a branch, up to its sign -/
theorem cAngle_value {subs : List CWhen} {vs : List CVertex} {p : CProb} (hp : CParts subs vs p) (hnet : CNetOk vs) (hn : subs.Nodup) {s : CWhen} (hs : s ∈ subs) (x : CId → Rat) {l : CVertex × Nat} (hl : l ∈ cOf cIsBranch vs) :
    cRowValue p (cSub s) x ⟨l.2, "angular difference".toList, cExtra s⟩ = cTheta vs s x (cFrom l.1) - cTheta vs s x (cTo l.1) ∨
    cRowValue p (cSub s) x ⟨l.2, "angular difference".toList, cExtra s⟩ = -(cTheta vs s x (cFrom l.1) - cTheta vs s x (cTo l.1)) := by
  obtain ⟨numbers, hm⟩ := cMat_of hp
  have hper : ∀ t : CWhen, t ≠ s → (⟨l.2, "angular difference".toList, cExtra t⟩ : CId) ≠ ⟨l.2, "angular difference".toList, cExtra s⟩ := by
    intro t ht hc
    injection hc with _ _ h3
    exact ht (cExtra_inj h3)
  have e1 : cRowValue p (cSub s) x ⟨l.2, "angular difference".toList, cExtra s⟩ = ((cAngles subs vs l.2).map (cWeight p s x ⟨l.2, "angular difference".toList, cExtra s⟩)).sum := by
    rw [cRowValue_eq, hm.elems, List.map_append, List.map_append, List.sum_append, List.sum_append]
    rw [cBlock_none (cOf cIsBus vs), cBlock_none (cOf cIsGen vs), add_zero, zero_add, cBlock (cOf cIsBranch vs) _ l hl (cOf_nodup _ _)]
    · intro b hb hne e he hrow
      have := (cAngles_rows e he).2
      rw [hrow] at this
      exact hne (cOf_inj hb hl this.symm)
    · intro b hb e he hrow
      have := (cPieces_rows (hm.pie b hb) e he).1
      rw [hrow] at this
      exact cName3 this.symm
    · intro b hb e he hrow
      have := (cBalance_rows hnet hm.num hb (hm.bal b hb) e he).1
      rw [hrow] at this
      exact cName2 this.symm
  have e2 : ∀ u ∈ cOf cIsBus vs, ∀ c : Rat, (((subs.map (fun t => (⟨c, ⟨l.2, "angular difference".toList, cExtra t⟩, ⟨u.2, "voltage angle".toList, cExtra t⟩⟩ : CElem))).map (cWeight p s x ⟨l.2, "angular difference".toList, cExtra s⟩)).sum = c * x ⟨u.2, "voltage angle".toList, cExtra s⟩) := by
    intro u hu c
    rw [cWeight_period hs hn _ (fun t ht => hper t ht), cWeight_mk]
    rw [if_pos (cActive_bus hp hu hs (Or.inl rfl))]
  obtain ⟨a, b, ha, hb, ha', hb', hab⟩ := cBoth_two hnet hl
  have e3 : cTheta vs s x (cFrom l.1) = x ⟨a.2, "voltage angle".toList, cExtra s⟩ := by
    obtain ⟨i, hi⟩ := List.getElem?_of_mem ha
    rw [← ha', (cTheta_eq hnet s x hi).1, (cTheta_eq hnet s x hi).2]
  have e4 : cTheta vs s x (cTo l.1) = x ⟨b.2, "voltage angle".toList, cExtra s⟩ := by
    obtain ⟨i, hi⟩ := List.getElem?_of_mem hb
    rw [← hb', (cTheta_eq hnet s x hi).1, (cTheta_eq hnet s x hi).2]
  have two : ∀ u v : CVertex × Nat, u ∈ cOf cIsBus vs → v ∈ cOf cIsBus vs → cBoth vs l.1 = [u, v] →
      ((cAngles subs vs l.2).map (cWeight p s x ⟨l.2, "angular difference".toList, cExtra s⟩)).sum = x ⟨u.2, "voltage angle".toList, cExtra s⟩ - x ⟨v.2, "voltage angle".toList, cExtra s⟩ := by
    intro u v hu hv h
    unfold cAngles
    rw [cEdges_to hnet hl, h, sum_flatMapE]
    simp only [List.map_cons, List.map_nil, List.zipIdx_cons, List.zipIdx_nil, List.length_cons, List.length_nil, List.sum_cons, List.sum_nil]
    rw [e2 u hu, e2 v hv]
    norm_num
    ring
  rw [e1, e3, e4]
  rcases hab with h | h
  · left
    exact two a b ha hb h
  · right
    rw [two b a hb ha h]
    ring

/-! ## rows -/

/-- what the rows of a program are -/
structure CRowParts (subs : List CWhen) (vs : List CVertex) (p : CProb) : Prop where
  bus : ∀ q ∈ cOf cIsBus vs, ∀ s ∈ subs, cBusRow q.1 q.2 s = .ok (okD (cBusRow q.1 q.2 s) ⟨⟨0, [], []⟩, none, none, [], false⟩)
  gen : ∀ q ∈ cOf cIsGen vs, ∀ s ∈ subs, cGenRows q.1 q.2 s = .ok (okD (cGenRows q.1 q.2 s) [])
  branch : ∀ q ∈ cOf cIsBranch vs, ∀ s ∈ subs, cBranchRow q.1 q.2 s = .ok (okD (cBranchRow q.1 q.2 s) ⟨⟨0, [], []⟩, none, none, [], false⟩)
  rows : p.rows = (cOf cIsBus vs).flatMap (fun q => subs.map (fun s => okD (cBusRow q.1 q.2 s) ⟨⟨0, [], []⟩, none, none, [], false⟩)) ++
    (cOf cIsGen vs).flatMap (fun q => subs.flatMap (fun s => okD (cGenRows q.1 q.2 s) [])) ++
    (cOf cIsBranch vs).flatMap (fun q => subs.map (fun s => okD (cBranchRow q.1 q.2 s) ⟨⟨0, [], []⟩, none, none, [], false⟩))

theorem cRowParts_of {subs : List CWhen} {vs : List CVertex} {p : CProb} (hp : CParts subs vs p) : CRowParts subs vs p := by
  have h := hp.rows
  unfold cRows at h
  obtain ⟨b, h1, h⟩ := (bindE_iff _ _ _).1 h
  obtain ⟨g, h2, h⟩ := (bindE_iff _ _ _).1 h
  obtain ⟨l, h3, h⟩ := (bindE_iff _ _ _).1 h
  obtain ⟨b1, b2⟩ := mapE_okD h1 []
  obtain ⟨g1, g2⟩ := mapE_okD h2 []
  obtain ⟨l1, l2⟩ := mapE_okD h3 []
  have hb := fun q hq => mapE_okD (b1 q hq) (⟨⟨0, [], []⟩, none, none, [], false⟩ : CRow)
  have hg := fun q hq => mapE_okD (g1 q hq) ([] : List CRow)
  have hl := fun q hq => mapE_okD (l1 q hq) (⟨⟨0, [], []⟩, none, none, [], false⟩ : CRow)
  refine ⟨fun q hq => (hb q hq).1, fun q hq => (hg q hq).1, fun q hq => (hl q hq).1, ?_⟩
  rw [← Except.ok.inj h, b2, g2, l2]
  congr 1
  · congr 1
    · rw [List.flatMap_def]
      congr 1
      apply List.map_congr_left
      intro q hq
      exact (hb q hq).2
    · rw [List.map_map, List.flatMap_def]
      congr 1
      apply List.map_congr_left
      intro q hq
      rw [Function.comp_apply, (hg q hq).2]
      rfl
  · rw [List.flatMap_def]
    congr 1
    apply List.map_congr_left
    intro q hq
    exact (hl q hq).2

theorem cBusRow_eq {v : CVertex} {n : Nat} {s : CWhen} {r : CRow} (h : cBusRow v n s = .ok r) : r = ⟨⟨n, "active power balance".toList, cExtra s⟩, some (cVal v "Pd".toList s), some (cVal v "Pd".toList s), cSub s, true⟩ := by
  unfold cBusRow at h
  obtain ⟨d, h1, h⟩ := (bindE_iff _ _ _).1 h
  unfold cVal
  rw [okD_ok h1]
  exact (Except.ok.inj h).symm

theorem cBranchRow_eq {v : CVertex} {n : Nat} {s : CWhen} {r : CRow} (h : cBranchRow v n s = .ok r) :
    r = ⟨⟨n, "angular difference".toList, cExtra s⟩, if cVal v "maxPflow".toList s = 0 then none else some (-cVal v "maxPflow".toList s * cVal v "reactance".toList s),
      if cVal v "maxPflow".toList s = 0 then none else some (cVal v "maxPflow".toList s * cVal v "reactance".toList s), cSub s, cOn v s⟩ := by
  unfold cBranchRow at h
  obtain ⟨m, h1, h⟩ := (bindE_iff _ _ _).1 h
  obtain ⟨y, h2, h⟩ := (bindE_iff _ _ _).1 h
  obtain ⟨st, h3, h⟩ := (bindE_iff _ _ _).1 h
  unfold cVal cOn
  rw [okD_ok h1, okD_ok h2, okD_ok h3]
  exact (Except.ok.inj h).symm

theorem cGenRows_eq {v : CVertex} {n : Nat} {s : CWhen} {l : List CRow} (h : cGenRows v n s = .ok l) :
    (cFetch v "cost function".toList [] = .none → l = []) ∧
    (∀ i, cFetch v "cost function".toList [] = .one i → ∃ bounds, cRowBounds i = .ok bounds ∧ l = bounds.zipIdx.map (fun q => ⟨cPieceId n s q.2, none, some q.1, cSub s, cOn v s⟩)) := by
  unfold cGenRows at h
  obtain ⟨st, h1, h⟩ := (bindE_iff _ _ _).1 h
  obtain ⟨info, h2, h⟩ := (bindE_iff _ _ _).1 h
  unfold cCostInfo at h2
  constructor
  · intro hf
    rw [hf] at h2
    cases h2
    exact (Except.ok.inj h).symm
  · intro i hf
    rw [hf] at h2
    cases h2
    obtain ⟨bounds, h3, h⟩ := (bindE_iff _ _ _).1 h
    refine ⟨bounds, h3, ?_⟩
    unfold cOn
    rw [okD_ok h1]
    exact (Except.ok.inj h).symm

theorem cSlopes_length {i : CInfo} {slopes bounds : List Rat} (h1 : cRowSlopes i = .ok slopes) (h2 : cRowBounds i = .ok bounds) : slopes.length = bounds.length := by
  unfold cRowSlopes at h1
  unfold cRowBounds at h2
  obtain ⟨a, a1, a2⟩ := (bindE_iff _ _ _).1 h1
  obtain ⟨b, b1, b2⟩ := (bindE_iff _ _ _).1 h2
  rw [a1] at b1
  cases b1
  rw [mapE_iff] at a2 b2
  rw [← a2.length_eq, ← b2.length_eq]

/-! ## the program is the optimal power flow -/

/-- **C202** a point is feasible for the program of a period exactly if it is a solution of the DC optimal power flow of that period -/
theorem C202_feasible_partial (subs : List CWhen) (vs : List CVertex) (p : CProb) (h : cProblem subs vs = .ok p) (hnet : CNetOk vs) (hn : subs.Nodup)
    (hcost : ∀ q ∈ cOf cIsGen vs, cFetch q.1 "cost function".toList [] ≠ .many) (s : CWhen) (hs : s ∈ subs) (x : CId → Rat) :
    cFeasible p (cSub s) x ↔ CDcOpf vs s x := by
  have hp := cParts_of h
  have hr := cRowParts_of hp
  obtain ⟨numbers, hm⟩ := cMat_of hp
  constructor
  · rintro ⟨hc, hrow⟩
    have bcol : ∀ q ∈ cOf cIsBus vs, ∀ c ∈ cBusCols q.2 s, cWithin c.lower c.upper (x c.id) := by
      intro q hq c hcc
      have hmem := (cCols_mem hp c).2 (Or.inl ⟨q, hq, s, hs, hcc⟩)
      have : c.active = true ∧ c.period = cSub s := by
        unfold cBusCols at hcc
        rcases List.mem_cons.1 hcc with rfl | hcc
        · exact ⟨rfl, rfl⟩
        rcases List.mem_cons.1 hcc with rfl | hcc
        · exact ⟨rfl, rfl⟩
        rcases List.mem_cons.1 hcc with rfl | hcc
        · exact ⟨rfl, rfl⟩
        cases hcc
      exact hc c hmem this.1 this.2
    refine ⟨?_, ?_, ?_, ?_, ?_, ?_⟩
    · intro q hq
      have h1 := hr.bus q hq s hs
      have h2 := cBusRow_eq h1
      have hmem : okD (cBusRow q.1 q.2 s) ⟨⟨0, [], []⟩, none, none, [], false⟩ ∈ p.rows := by
        rw [hr.rows, List.mem_append, List.mem_append]
        exact Or.inl (Or.inl (List.mem_flatMap.2 ⟨q, hq, List.mem_map.2 ⟨s, hs, rfl⟩⟩))
      rw [h2] at hmem
      have h3 := hrow _ hmem rfl rfl
      dsimp only at h3
      rw [cBalance_value hp hnet hn hs x hq] at h3
      exact le_antisymm (h3.2 _ rfl) (h3.1 _ rfl)
    · intro q hq
      exact (bcol q hq _ (List.mem_cons_of_mem _ List.mem_cons_self)).1 0 rfl
    · intro q hq
      exact (bcol q hq _ (List.mem_cons_of_mem _ (List.mem_cons_of_mem _ List.mem_cons_self))).1 0 rfl
    · intro q hq hon
      have hmem := (cCols_mem hp _).2 (Or.inr ⟨q, hq, s, hs, (cGenCols_mem hp hq hs _).2 (Or.inl rfl)⟩)
      have h3 := hc _ hmem hon rfl
      exact ⟨h3.1 _ rfl, h3.2 _ rfl⟩
    · intro q hq hon i hi sl ub hsl hub
      have hmem := (cCols_mem hp _).2 (Or.inr ⟨q, hq, s, hs, (cGenCols_mem hp hq hs _).2 (Or.inr ⟨by rw [hi]; simp, rfl⟩)⟩)
      have h3 := hc _ hmem hon rfl
      refine ⟨h3.1 0 rfl, ?_⟩
      intro k a u ha hu
      obtain ⟨bounds, hb1, hb2⟩ := (cGenRows_eq (hr.gen q hq s hs)).2 i hi
      rw [hub] at hb1
      cases hb1
      have hmem2 : (⟨cPieceId q.2 s k, none, some u, cSub s, cOn q.1 s⟩ : CRow) ∈ p.rows := by
        rw [hr.rows, List.mem_append, List.mem_append]
        refine Or.inl (Or.inr (List.mem_flatMap.2 ⟨q, hq, List.mem_flatMap.2 ⟨s, hs, ?_⟩⟩))
        rw [hb2]
        exact List.mem_map.2 ⟨(u, k), List.mem_zipIdx_iff_getElem?.2 hu, rfl⟩
      have h4 := hrow _ hmem2 hon rfl
      dsimp only at h4
      rw [cPiece_value hp hnet hn hs x hq hi hsl ha hon] at h4
      exact h4.2 u rfl
    · intro q hq hon hmax
      have h2 := cBranchRow_eq (hr.branch q hq s hs)
      have hmem : okD (cBranchRow q.1 q.2 s) ⟨⟨0, [], []⟩, none, none, [], false⟩ ∈ p.rows := by
        rw [hr.rows, List.mem_append, List.mem_append]
        exact Or.inr (List.mem_flatMap.2 ⟨q, hq, List.mem_map.2 ⟨s, hs, rfl⟩⟩)
      rw [h2, if_neg hmax, if_neg hmax] at hmem
      have h3 := hrow _ hmem hon rfl
      dsimp only at h3
      have h4 := h3.1 _ rfl
      have h5 := h3.2 _ rfl
      rw [abs_le]
      rcases cAngle_value hp hnet hn hs x hq with e | e <;> rw [e] at h4 h5
      · exact ⟨by linarith, by linarith⟩
      · exact ⟨by linarith, by linarith⟩
  · intro d
    constructor
    · intro c hc hact hper
      rcases (cCols_mem hp c).1 hc with ⟨q, hq, t, ht, hct⟩ | ⟨q, hq, t, ht, hct⟩
      · have : t = s := by
          apply cSub_inj
          rw [← hper]
          unfold cBusCols at hct
          rcases List.mem_cons.1 hct with rfl | hct
          · rfl
          rcases List.mem_cons.1 hct with rfl | hct
          · rfl
          rcases List.mem_cons.1 hct with rfl | hct
          · rfl
          cases hct
        subst this
        unfold cBusCols at hct
        rcases List.mem_cons.1 hct with rfl | hct
        · exact ⟨fun l hl => (by cases hl), fun u hu => by cases hu⟩
        rcases List.mem_cons.1 hct with rfl | hct
        · exact ⟨fun l hl => by cases hl; exact d.load q hq, fun u hu => by cases hu⟩
        rcases List.mem_cons.1 hct with rfl | hct
        · exact ⟨fun l hl => by cases hl; exact d.spill q hq, fun u hu => by cases hu⟩
        cases hct
      · rcases (cGenCols_mem hp hq ht c).1 hct with rfl | ⟨hne, rfl⟩
        · have : t = s := cSub_inj hper
          subst this
          have h3 := d.output q hq hact
          exact ⟨fun l hl => by cases hl; exact h3.1, fun u hu => by cases hu; exact h3.2⟩
        · have : t = s := cSub_inj hper
          subst this
          refine ⟨fun l hl => ?_, fun u hu => by cases hu⟩
          cases hl
          cases hf : cFetch q.1 "cost function".toList [] with
          | none => exact absurd hf hne
          | many => exact absurd hf (hcost q hq)
          | one i =>
            obtain ⟨slopes, h1, _⟩ := cPieces_eq hf (hm.pie q hq)
            obtain ⟨bounds, h2, _⟩ := (cGenRows_eq (hr.gen q hq t hs)).2 i hf
            exact (d.cost q hq hact i hf slopes bounds h1 h2).1
    · intro r hrm hact hper
      rw [hr.rows, List.mem_append, List.mem_append] at hrm
      rcases hrm with (hrm | hrm) | hrm
      · obtain ⟨q, hq, hrm⟩ := List.mem_flatMap.1 hrm
        obtain ⟨t, ht, rfl⟩ := List.mem_map.1 hrm
        have h2 := cBusRow_eq (hr.bus q hq t ht)
        rw [h2] at hper ⊢
        have : t = s := cSub_inj hper
        subst this
        dsimp only
        rw [cBalance_value hp hnet hn hs x hq, d.balance q hq]
        exact ⟨fun l hl => by cases hl; exact le_refl _, fun u hu => by cases hu; exact le_refl _⟩
      · obtain ⟨q, hq, hrm⟩ := List.mem_flatMap.1 hrm
        obtain ⟨t, ht, hrm⟩ := List.mem_flatMap.1 hrm
        cases hf : cFetch q.1 "cost function".toList [] with
        | none =>
          rw [(cGenRows_eq (hr.gen q hq t ht)).1 hf] at hrm
          cases hrm
        | many => exact absurd hf (hcost q hq)
        | one i =>
          obtain ⟨bounds, h2, h3⟩ := (cGenRows_eq (hr.gen q hq t ht)).2 i hf
          rw [h3] at hrm
          obtain ⟨⟨u, k⟩, hz, rfl⟩ := List.mem_map.1 hrm
          have : t = s := cSub_inj hper
          subst this
          obtain ⟨slopes, h1, _⟩ := cPieces_eq hf (hm.pie q hq)
          rw [List.mem_zipIdx_iff_getElem?] at hz
          have hk : k < slopes.length := by
            rw [cSlopes_length h1 h2]
            exact (List.getElem?_eq_some_iff.1 hz).1
          have hka := List.getElem?_eq_getElem hk
          dsimp only
          rw [cPiece_value hp hnet hn hs x hq hf h1 hka hact]
          refine ⟨fun l hl => (by cases hl), fun w hw => ?_⟩
          cases hw
          exact (d.cost q hq hact i hf slopes bounds h1 h2).2 k _ u hka hz
      · obtain ⟨q, hq, hrm⟩ := List.mem_flatMap.1 hrm
        obtain ⟨t, ht, rfl⟩ := List.mem_map.1 hrm
        have h2 := cBranchRow_eq (hr.branch q hq t ht)
        rw [h2] at hper hact ⊢
        have : t = s := cSub_inj hper
        subst this
        dsimp only at hact ⊢
        by_cases hmax : cVal q.1 "maxPflow".toList t = 0
        · rw [if_pos hmax, if_pos hmax]
          exact ⟨fun l hl => (by cases hl), fun u hu => by cases hu⟩
        · rw [if_neg hmax, if_neg hmax]
          have h5 := abs_le.1 (d.limits q hq hact hmax)
          rcases cAngle_value hp hnet hn hs x hq with e | e <;> rw [e]
          · exact ⟨fun l hl => by cases hl; linarith, fun u hu => by cases hu; linarith⟩
          · exact ⟨fun l hl => by cases hl; linarith, fun u hu => by cases hu; linarith⟩

end Pyensys
