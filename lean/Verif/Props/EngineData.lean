import Verif.Model.EngineData
import Verif.Props.AttestOptions

/-!
# Parameters of the compiled engine (C199) and conversion to per unit (C200)
-/

namespace Pyensys

theorem cSubset_iff (a b : List CChar) : cSubset a b = true ↔ ∀ c ∈ a, c ∈ b := by
  unfold cSubset
  rw [List.all_eq_true]
  refine forall_congr' (fun c => forall_congr' (fun _ => ?_))
  rw [List.any_eq_true]
  constructor
  · rintro ⟨d, h1, h2⟩
    rw [decide_eq_true_iff] at h2
    exact h2 ▸ h1
  · intro h
    exact ⟨c, h, by simp⟩

/-! ## C199: parameters are stored and found -/

/-- the ID of a parameter -/
def cId (l : List CChar) : CChar := cGetChar l "ID".toList

/-- the value that was given last with these characteristics -/
def cLast (ps : List CInfo) (chars : List CChar) : Option CVal := ((ps.filter (fun p => decide (p.chars = chars))).getLast?).map (·.value)

/-- no parameter repeats all the characteristics of another one and adds some -/
def CApart (ps : List CInfo) : Prop := ∀ p ∈ ps, ∀ q ∈ ps, (∀ c ∈ p.chars, c ∈ q.chars) → p.chars = q.chars

/-- the stored parameters of an element -/
structure CKept (ps s : List CInfo) : Prop where
  nodup : (s.map (·.chars)).Nodup
  last : ∀ e ∈ s, cLast ps e.chars = some e.value
  from_ : ∀ e ∈ s, ∃ p ∈ ps, p.chars = e.chars
  all : ∀ p ∈ ps, ∃ e ∈ s, e.chars = p.chars

theorem cLast_snoc (ps : List CInfo) (p : CInfo) (chars : List CChar) :
    cLast (ps ++ [p]) chars = if p.chars = chars then some p.value else cLast ps chars := by
  unfold cLast
  rw [List.filter_append]
  by_cases h : p.chars = chars <;> simp [List.filter, h]

theorem cPush_spec : ∀ (s : List CInfo) (p : CInfo), (s.map (·.chars)).Nodup → (∀ e ∈ s, (∀ c ∈ e.chars, c ∈ p.chars) → e.chars = p.chars) →
    ((∃ e ∈ s, e.chars = p.chars) → cPush s p = s.map (fun e => if e.chars = p.chars then ⟨e.chars, p.value⟩ else e)) ∧
    ((¬ ∃ e ∈ s, e.chars = p.chars) → cPush s p = s ++ [p]) := by
  intro s
  induction s with
  | nil => intro p _ _; exact ⟨fun h => by simp at h, fun _ => rfl⟩
  | cons a l ih =>
    intro p hn hs
    rw [List.map_cons, List.nodup_cons] at hn
    have := ih p hn.2 (fun e he => hs e (List.mem_cons_of_mem _ he))
    by_cases ha : cSubset a.chars p.chars = true
    · have hc : a.chars = p.chars := hs a List.mem_cons_self ((cSubset_iff _ _).1 ha)
      refine ⟨fun _ => ?_, fun h => absurd ⟨a, List.mem_cons_self, hc⟩ h⟩
      rw [cPush, if_pos ha, List.map_cons, if_pos hc]
      congr 1
      conv_lhs => rw [← List.map_id l]
      apply List.map_congr_left
      intro e he
      rw [if_neg (fun h => hn.1 (List.mem_map.2 ⟨e, he, h.trans hc.symm⟩))]
      rfl
    · have hc : a.chars ≠ p.chars := fun h => ha ((cSubset_iff _ _).2 (by rw [h]; exact fun c h => h))
      rw [cPush, if_neg ha, List.map_cons, if_neg hc]
      constructor
      · rintro ⟨e, he, h⟩
        rcases List.mem_cons.1 he with rfl | he
        · exact absurd h hc
        · rw [this.1 ⟨e, he, h⟩]
      · intro h
        rw [this.2 (fun ⟨e, he, h'⟩ => h ⟨e, List.mem_cons_of_mem _ he, h'⟩)]
        rfl

theorem cKept_push {ps s : List CInfo} (h : CKept ps s) (p : CInfo) (ha : ∀ q ∈ ps, (∀ c ∈ q.chars, c ∈ p.chars) → q.chars = p.chars) : CKept (ps ++ [p]) (cPush s p) := by
  have hs := cPush_spec s p h.nodup (fun e he hc => by
    obtain ⟨q, hq, e1⟩ := h.from_ e he
    rw [← e1] at hc ⊢
    exact ha q hq hc)
  by_cases hx : ∃ e ∈ s, e.chars = p.chars
  · rw [hs.1 hx]
    have hm : (s.map (fun e => if e.chars = p.chars then (⟨e.chars, p.value⟩ : CInfo) else e)).map (·.chars) = s.map (·.chars) := by
      rw [List.map_map]
      apply List.map_congr_left
      intro e _
      simp only [Function.comp]
      split <;> rfl
    refine ⟨by rw [hm]; exact h.nodup, ?_, ?_, ?_⟩
    · intro e he
      rw [List.mem_map] at he
      obtain ⟨e', he', rfl⟩ := he
      rw [cLast_snoc]
      split
      · next hc => rw [if_pos hc.symm]
      · next hc => rw [if_neg (fun h => hc h.symm)]; exact h.last e' he'
    · intro e he
      rw [List.mem_map] at he
      obtain ⟨e', he', rfl⟩ := he
      obtain ⟨q, hq, e1⟩ := h.from_ e' he'
      refine ⟨q, List.mem_append_left _ hq, ?_⟩
      split <;> exact e1
    · intro q hq
      have : q.chars ∈ s.map (·.chars) := by
        rcases List.mem_append.1 hq with hq | hq
        · obtain ⟨e, he, e1⟩ := h.all q hq
          exact List.mem_map.2 ⟨e, he, e1⟩
        · rw [List.mem_singleton] at hq
          obtain ⟨e, he, e1⟩ := hx
          exact List.mem_map.2 ⟨e, he, by rw [e1, hq]⟩
      rw [← hm] at this
      exact List.mem_map.1 this
  · rw [hs.2 hx]
    refine ⟨?_, ?_, ?_, ?_⟩
    · rw [List.map_append, List.nodup_append]
      refine ⟨h.nodup, by simp, ?_⟩
      intro a ha' b hb e
      rw [List.map_cons, List.map_nil, List.mem_singleton] at hb
      obtain ⟨e', he', e1⟩ := List.mem_map.1 ha'
      exact hx ⟨e', he', e1.trans (e.trans hb)⟩
    · intro e he
      rw [cLast_snoc]
      rcases List.mem_append.1 he with he | he
      · rw [if_neg (fun hc => hx ⟨e, he, hc.symm⟩)]
        exact h.last e he
      · rw [List.mem_singleton] at he
        rw [he, if_pos rfl]
    · intro e he
      rcases List.mem_append.1 he with he | he
      · obtain ⟨q, hq, e1⟩ := h.from_ e he
        exact ⟨q, List.mem_append_left _ hq, e1⟩
      · rw [List.mem_singleton] at he
        exact ⟨p, List.mem_append_right _ (by simp), by rw [he]⟩
    · intro q hq
      rcases List.mem_append.1 hq with hq | hq
      · obtain ⟨e, he, e1⟩ := h.all q hq
        exact ⟨e, List.mem_append_left _ he, e1⟩
      · rw [List.mem_singleton] at hq
        exact ⟨p, List.mem_append_right _ (by simp), by rw [hq]⟩

theorem cKept_fold (ps : List CInfo) (ha : CApart ps) : CKept ps (ps.foldl cPush []) := by
  have key : ∀ (rest done s : List CInfo), done ++ rest = ps → CKept done s → CKept ps (rest.foldl cPush s) := by
    intro rest
    induction rest with
    | nil => intro done s h1 h2; rw [List.append_nil] at h1; exact h1 ▸ h2
    | cons p rest ih =>
      intro done s h1 h2
      refine ih (done ++ [p]) _ (by rw [List.append_assoc]; exact h1) (cKept_push h2 p ?_)
      intro q hq hc
      exact ha q (h1 ▸ List.mem_append_left _ hq) p (h1 ▸ List.mem_append_right _ List.mem_cons_self) hc
  exact key ps [] [] rfl ⟨by simp, by simp, by simp, by simp⟩

theorem cGetChar_set_ne {l : List CChar} {c : CChar} {vec : Bool} {name : Tok} (h : c.name ≠ name) : cGetChar (cSetChar l c vec) name = cGetChar l name := by
  unfold cGetChar
  congr 1
  induction l with
  | nil => simp [cSetChar, h]
  | cons e l ih =>
    rw [cSetChar]
    split
    · next he =>
      have h1 : e.name ≠ name := he ▸ h
      have h3 : (if vec = true then (⟨e.name, e.value, e.values ++ c.values⟩ : CChar) else c).name ≠ name := by
        split
        · exact h1
        · exact h
      rw [List.find?_cons_of_neg (by simpa using h3), List.find?_cons_of_neg (by simpa using h1)]
    · by_cases h2 : e.name = name
      · rw [List.find?_cons_of_pos (by simpa using h2), List.find?_cons_of_pos (by simpa using h2)]
      · rw [List.find?_cons_of_neg (by simpa using h2), List.find?_cons_of_neg (by simpa using h2), ih]

theorem cGetChar_name (l : List CChar) (name : Tok) : (cGetChar l name).name = name ∨ (cGetChar l name).name = "N/A".toList := by
  unfold cGetChar
  cases h : l.find? (fun c => decide (c.name = name)) with
  | none => right; rfl
  | some c => left; simpa using List.find?_some h

theorem cName_ne (l : List CChar) {name other : Tok} (h1 : name ≠ other) (h2 : "N/A".toList ≠ other) : (cGetChar l name).name ≠ other := by
  rcases cGetChar_name l name with h | h <;> rw [h] <;> assumption

theorem cOptional_ne (l : List CChar) (p : CInfo) {name other : Tok} (h1 : name ≠ other) (h2 : "N/A".toList ≠ other) : cGetChar (cOptional l p name) other = cGetChar l other := by
  unfold cOptional
  split
  · exact cGetChar_set_ne (cName_ne _ h1 h2)
  · rfl

/-- the vertex of a parameter has its ID -/
theorem cVertex_id (p : CInfo) (h : cHas p.chars "ID".toList = true) : cId (cVertex p).chars = cId p.chars := by
  have hid : (cGetChar p.chars "ID".toList).name = "ID".toList := by
    unfold cHas at h
    unfold cGetChar
    cases hf : p.chars.find? (fun c => decide (c.name = "ID".toList)) with
    | none =>
      rw [List.find?_eq_none] at hf
      rw [List.any_eq_true] at h
      obtain ⟨c, h1, h2⟩ := h
      exact absurd h2 (hf c h1)
    | some c => simpa using List.find?_some hf
  have base : cGetChar (cSetChar (cSetChar [] (cGetChar p.chars "ID".toList) false) (cGetChar p.chars "type".toList) false) "ID".toList = cGetChar p.chars "ID".toList := by
    rw [cGetChar_set_ne (cName_ne _ (by decide) (by decide))]
    rw [cSetChar]
    change ([cGetChar p.chars "ID".toList].find? (fun c => decide (c.name = "ID".toList))).getD _ = _
    rw [List.find?_cons_of_pos (by rw [decide_eq_true_iff]; exact hid)]
    rfl
  unfold cId cVertex
  dsimp only
  split
  · dsimp only
    rw [cGetChar_set_ne (cName_ne _ (by decide) (by decide)), cGetChar_set_ne (cName_ne _ (by decide) (by decide)), cOptional_ne _ _ (by decide) (by decide), cOptional_ne _ _ (by decide) (by decide), base]
  · dsimp only
    rw [cGetChar_set_ne (cName_ne _ (by decide) (by decide)), cOptional_ne _ _ (by decide) (by decide), cOptional_ne _ _ (by decide) (by decide), base]

/-- the elements: one for each ID, with all parameters of the ID in the order in which they were given -/
structure CElements (ps : List CInfo) (vs : List CVertex) : Prop where
  nodup : (vs.map (fun v => cId v.chars)).Nodup
  all : ∀ p ∈ ps, ∃ v ∈ vs, cId v.chars = cId p.chars
  params : ∀ v ∈ vs, v.params = (ps.filter (fun p => decide (cId p.chars = cId v.chars))).foldl cPush []
  chars : ∀ v ∈ vs, ∃ p, (ps.filter (fun p => decide (cId p.chars = cId v.chars))).head? = some p ∧ v.chars = (cVertex p).chars

theorem cAdd_spec : ∀ (vs : List CVertex) (p : CInfo), (vs.map (fun v => cId v.chars)).Nodup →
    ((∃ v ∈ vs, cId v.chars = cId p.chars) → cAdd vs p = vs.map (fun v => if cId v.chars = cId p.chars then ⟨v.chars, cPush v.params p⟩ else v)) ∧
    ((¬ ∃ v ∈ vs, cId v.chars = cId p.chars) → cAdd vs p = vs ++ [cVertex p]) := by
  intro vs
  induction vs with
  | nil => intro p _; exact ⟨fun h => by simp at h, fun _ => rfl⟩
  | cons a l ih =>
    intro p hn
    rw [List.map_cons, List.nodup_cons] at hn
    have := ih p hn.2
    by_cases ha : cId a.chars = cId p.chars
    · refine ⟨fun _ => ?_, fun h => absurd ⟨a, List.mem_cons_self, ha⟩ h⟩
      rw [cAdd]; unfold cId at ha ⊢; rw [if_pos ha.symm, List.map_cons, if_pos ha]
      congr 1
      conv_lhs => rw [← List.map_id l]
      apply List.map_congr_left
      intro e he
      rw [if_neg (fun h => hn.1 (List.mem_map.2 ⟨e, he, h.trans ha.symm⟩))]
      rfl
    · have ha' : ¬ cGetChar p.chars "ID".toList = cGetChar a.chars "ID".toList := fun h => ha h.symm
      rw [cAdd, if_neg ha', List.map_cons, if_neg ha]
      constructor
      · rintro ⟨e, he, h⟩
        rcases List.mem_cons.1 he with rfl | he
        · exact absurd h ha
        · rw [this.1 ⟨e, he, h⟩]
      · intro h
        rw [this.2 (fun ⟨e, he, h'⟩ => h ⟨e, List.mem_cons_of_mem _ he, h'⟩)]
        rfl

/-- **C199.** Every parameter that is loaded belongs to the one element of its ID, and every element has all the parameters with its ID. -/
theorem C199_elements_partial (ps : List CInfo) (hid : ∀ p ∈ ps, cHas p.chars "ID".toList = true) : CElements ps (cNodes ps) := by
  have key : ∀ (rest done : List CInfo) (vs : List CVertex), done ++ rest = ps → CElements done vs → CElements ps (rest.foldl cAdd vs) := by
    intro rest
    induction rest with
    | nil => intro done vs h1 h2; rw [List.append_nil] at h1; exact h1 ▸ h2
    | cons p rest ih =>
      intro done vs h1 h2
      refine ih (done ++ [p]) _ (by rw [List.append_assoc]; exact h1) ?_
      have hp : cId (cVertex p).chars = cId p.chars := cVertex_id p (hid p (h1 ▸ List.mem_append_right _ List.mem_cons_self))
      have hs := cAdd_spec vs p h2.nodup
      by_cases hx : ∃ v ∈ vs, cId v.chars = cId p.chars
      · rw [hs.1 hx]
        have hm : (vs.map (fun v => if cId v.chars = cId p.chars then (⟨v.chars, cPush v.params p⟩ : CVertex) else v)).map (fun v => cId v.chars) = vs.map (fun v => cId v.chars) := by
          rw [List.map_map]
          apply List.map_congr_left
          intro e _
          simp only [Function.comp]
          split <;> rfl
        refine ⟨by rw [hm]; exact h2.nodup, ?_, ?_, ?_⟩
        · intro q hq
          have : cId q.chars ∈ vs.map (fun v => cId v.chars) := by
            rcases List.mem_append.1 hq with hq | hq
            · obtain ⟨e, he, e1⟩ := h2.all q hq
              exact List.mem_map.2 ⟨e, he, e1⟩
            · rw [List.mem_singleton] at hq
              obtain ⟨e, he, e1⟩ := hx
              exact List.mem_map.2 ⟨e, he, by rw [e1, hq]⟩
          rw [← hm] at this
          obtain ⟨v, h3, h4⟩ := List.mem_map.1 this
          exact ⟨v, h3, h4⟩
        · intro v hv
          obtain ⟨w, hw, rfl⟩ := List.mem_map.1 hv
          have := h2.params w hw
          split
          · next hc =>
            dsimp only
            rw [List.filter_append, List.foldl_append, ← this]
            simp [List.filter, hc]
          · next hc =>
            rw [List.filter_append, List.foldl_append, ← this]
            have hc' : ¬ cId p.chars = cId w.chars := fun h => hc h.symm
            simp [List.filter, hc']
        · intro v hv
          obtain ⟨w, hw, rfl⟩ := List.mem_map.1 hv
          obtain ⟨q, h3, h4⟩ := h2.chars w hw
          have e : (if cId w.chars = cId p.chars then (⟨w.chars, cPush w.params p⟩ : CVertex) else w).chars = w.chars := by split <;> rfl
          rw [e]
          refine ⟨q, ?_, h4⟩
          rw [List.filter_append, List.head?_append, h3]
          rfl
      · rw [hs.2 hx]
        have hnone : done.filter (fun q => decide (cId q.chars = cId p.chars)) = [] := by
          rw [List.filter_eq_nil_iff]
          intro q hq h
          rw [decide_eq_true_iff] at h
          obtain ⟨v, hv, e⟩ := h2.all q hq
          exact hx ⟨v, hv, e.trans h⟩
        refine ⟨?_, ?_, ?_, ?_⟩
        · rw [List.map_append, List.nodup_append]
          refine ⟨h2.nodup, by simp, ?_⟩
          intro a ha b hb e
          rw [List.map_cons, List.map_nil, List.mem_singleton] at hb
          obtain ⟨v, hv, e1⟩ := List.mem_map.1 ha
          exact hx ⟨v, hv, e1.trans (e.trans (hb.trans hp))⟩
        · intro q hq
          rcases List.mem_append.1 hq with hq | hq
          · obtain ⟨v, hv, e⟩ := h2.all q hq
            exact ⟨v, List.mem_append_left _ hv, e⟩
          · rw [List.mem_singleton] at hq
            exact ⟨cVertex p, List.mem_append_right _ (by simp), by rw [hp, hq]⟩
        · intro v hv
          rcases List.mem_append.1 hv with hv | hv
          · have hne : ¬ cId p.chars = cId v.chars := fun h => hx ⟨v, hv, h.symm⟩
            rw [List.filter_append, List.foldl_append, ← h2.params v hv]
            simp [List.filter, hne]
          · rw [List.mem_singleton] at hv
            rw [hv, hp, List.filter_append, hnone]
            simp only [List.nil_append, List.filter, decide_true, List.foldl_cons, List.foldl_nil]
            unfold cVertex
            dsimp only
            split <;> rfl
        · intro v hv
          rcases List.mem_append.1 hv with hv | hv
          · obtain ⟨q, h3, h4⟩ := h2.chars v hv
            refine ⟨q, ?_, h4⟩
            rw [List.filter_append, List.head?_append, h3]
            rfl
          · rw [List.mem_singleton] at hv
            refine ⟨p, ?_, by rw [hv]⟩
            rw [hv, hp, List.filter_append, hnone]
            simp [List.filter]
  exact key ps [] [] rfl ⟨by simp, by simp, by simp, by simp⟩

/-- the parameters that answer a question: all the characteristics that are asked for -/
def cAnswers (ps : List CInfo) (chars : List CChar) : List CInfo := ps.filter (fun p => decide (∀ c ∈ chars, c ∈ p.chars))

/-- the characteristics that are asked for: those of the element, the name, and those of the period -/
def cAsk (v : CVertex) (name : Tok) (extra : List CChar) : List CChar := v.chars ++ ⟨"name".toList, .str name, []⟩ :: extra

theorem cMulti_mem (s : List CInfo) (chars : List CChar) (e : CInfo) : e ∈ cMulti s chars ↔ e ∈ s ∧ ∀ c ∈ chars, c ∈ e.chars := by
  unfold cMulti
  rw [List.mem_filter, cSubset_iff]

/-- **C199.** What the engine finds for an element, a name and a period: the value that was given last, if all the parameters that answer the question have the same characteristics; nothing if none answers; a conflict otherwise. -/
theorem C199_lookup_partial (ps : List CInfo) (hid : ∀ p ∈ ps, cHas p.chars "ID".toList = true) (v : CVertex) (hv : v ∈ cNodes ps)
    (ha : CApart (ps.filter (fun p => decide (cId p.chars = cId v.chars)))) (name : Tok) (extra : List CChar) :
    let given := ps.filter (fun p => decide (cId p.chars = cId v.chars))
    (cAnswers given (cAsk v name extra) = [] → cFetch v name extra = .none) ∧
    (∀ p, p ∈ cAnswers given (cAsk v name extra) → (∀ q ∈ cAnswers given (cAsk v name extra), q.chars = p.chars) →
      ∃ w, cLast given p.chars = some w ∧ cFetch v name extra = .one ⟨p.chars, w⟩) ∧
    (∀ p q, p ∈ cAnswers given (cAsk v name extra) → q ∈ cAnswers given (cAsk v name extra) → p.chars ≠ q.chars → cFetch v name extra = .many) := by
  intro given
  have hk := cKept_fold given ha
  rw [← (C199_elements_partial ps hid).params v hv] at hk
  have hmem : ∀ p, p ∈ cAnswers given (cAsk v name extra) ↔ p ∈ given ∧ ∀ c ∈ cAsk v name extra, c ∈ p.chars := by
    intro p
    unfold cAnswers
    rw [List.mem_filter, decide_eq_true_iff]
  have hex : ∀ p ∈ cAnswers given (cAsk v name extra), ∃ e ∈ cMulti v.params (cAsk v name extra), e.chars = p.chars := by
    intro p hp
    obtain ⟨h1, h2⟩ := (hmem p).1 hp
    obtain ⟨e, he, e1⟩ := hk.all p h1
    exact ⟨e, (cMulti_mem _ _ _).2 ⟨he, e1 ▸ h2⟩, e1⟩
  have hback : ∀ e ∈ cMulti v.params (cAsk v name extra), ∃ p ∈ cAnswers given (cAsk v name extra), p.chars = e.chars := by
    intro e he
    obtain ⟨h1, h2⟩ := (cMulti_mem _ _ _).1 he
    obtain ⟨p, hp, e1⟩ := hk.from_ e h1
    exact ⟨p, (hmem p).2 ⟨hp, e1 ▸ h2⟩, e1⟩
  have hnd : ((cMulti v.params (cAsk v name extra)).map (·.chars)).Nodup := (List.filter_sublist.map _).nodup hk.nodup
  refine ⟨?_, ?_, ?_⟩
  · intro h
    have : cMulti v.params (cAsk v name extra) = [] := by
      rw [List.eq_nil_iff_forall_not_mem]
      intro e he
      obtain ⟨p, hp, _⟩ := hback e he
      rw [h] at hp
      exact absurd hp (by simp)
    unfold cFetch
    change (match cMulti v.params (cAsk v name extra) with | [] => CFound.none | [i] => .one i | _ :: _ :: _ => .many) = _
    rw [this]
  · intro p hp hq
    obtain ⟨e, he, e1⟩ := hex p hp
    have hall : ∀ e' ∈ cMulti v.params (cAsk v name extra), e'.chars = p.chars := by
      intro e' he'
      obtain ⟨q, hq', e2⟩ := hback e' he'
      rw [← e2]
      exact hq q hq'
    have hone : cMulti v.params (cAsk v name extra) = [e] := by
      revert hnd hall he
      cases cMulti v.params (cAsk v name extra) with
      | nil => intro _ he _; exact absurd he (by simp)
      | cons a l =>
        cases l with
        | nil => intro _ he _; rw [List.mem_singleton] at he; rw [he]
        | cons b l =>
          intro hnd _ hall
          rw [List.map_cons, List.nodup_cons] at hnd
          exact absurd (List.mem_map.2 ⟨b, by simp, (hall b (by simp)).trans (hall a (by simp)).symm⟩) hnd.1
    refine ⟨e.value, ?_, ?_⟩
    · rw [← e1]
      exact hk.last e ((cMulti_mem _ _ _).1 he).1
    · unfold cFetch
      change (match cMulti v.params (cAsk v name extra) with | [] => CFound.none | [i] => .one i | _ :: _ :: _ => .many) = _
      rw [hone, ← e1]
  · intro p q hp hq hne
    obtain ⟨e, he, e1⟩ := hex p hp
    obtain ⟨e', he', e2⟩ := hex q hq
    unfold cFetch
    change (match cMulti v.params (cAsk v name extra) with | [] => CFound.none | [i] => .one i | _ :: _ :: _ => .many) = _
    revert he he'
    cases cMulti v.params (cAsk v name extra) with
    | nil => intro he; exact absurd he (by simp)
    | cons a l =>
      cases l with
      | nil =>
        intro he he'
        rw [List.mem_singleton] at he he'
        exact absurd (by rw [← e1, ← e2, he, he']) hne
      | cons b l => intro _ _; rfl

/-- **C199.** A parameter that does not depend on the period has the value that was given last in every period; one that is given for several periods has in each period the value that was given last for it. -/
theorem C199_value_partial (ps : List CInfo) (hid : ∀ p ∈ ps, cHas p.chars "ID".toList = true) (v : CVertex) (hv : v ∈ cNodes ps)
    (ha : CApart (ps.filter (fun p => decide (cId p.chars = cId v.chars)))) (name : Tok) (extra : List CChar) :
    let given := ps.filter (fun p => decide (cId p.chars = cId v.chars))
    (∀ p ∈ cAnswers given (cAsk v name []), (∀ q ∈ cAnswers given (cAsk v name []), q.chars = p.chars) → ∃ w, cLast given p.chars = some w ∧ cParam v name extra = .ok w) ∧
    (∀ p ∈ cAnswers given (cAsk v name extra), (∀ q ∈ cAnswers given (cAsk v name extra), q.chars = p.chars) → (∃ q ∈ cAnswers given (cAsk v name []), q.chars ≠ p.chars) →
      ∃ w, cLast given p.chars = some w ∧ cParam v name extra = .ok w) := by
  intro given
  constructor
  · intro p hp hq
    obtain ⟨w, h1, h2⟩ := (C199_lookup_partial ps hid v hv ha name []).2.1 p hp hq
    refine ⟨w, h1, ?_⟩
    unfold cParam
    rw [h2]
  · intro p hp hq ⟨q, hq1, hq2⟩
    obtain ⟨w, h1, h2⟩ := (C199_lookup_partial ps hid v hv ha name extra).2.1 p hp hq
    refine ⟨w, h1, ?_⟩
    have hp' : p ∈ cAnswers given (cAsk v name []) := by
      unfold cAnswers at hp ⊢
      rw [List.mem_filter, decide_eq_true_iff] at hp ⊢
      refine ⟨hp.1, fun c hc => hp.2 c ?_⟩
      unfold cAsk at hc ⊢
      rw [List.mem_append, List.mem_cons] at hc ⊢
      rcases hc with hc | hc | hc
      · exact Or.inl hc
      · exact Or.inr (Or.inl hc)
      · exact absurd hc (by simp)
    unfold cParam
    rw [(C199_lookup_partial ps hid v hv ha name []).2.2 q p hq1 hp' hq2]
    dsimp only
    rw [h2]

/-- **C199 fails** for elements of different types with the same ID: the parameters of the second one become parameters of the first. -/
theorem C199_ids_violated (p q : CInfo) (hp : cHas p.chars "ID".toList = true) (h : cId q.chars = cId p.chars) :
    (cNodes [p, q]).length = 1 ∧ ∀ v ∈ cNodes [p, q], v.chars = (cVertex p).chars := by
  have e : cNodes [p, q] = [⟨(cVertex p).chars, cPush (cVertex p).params q⟩] := by
    unfold cNodes
    simp only [List.foldl_cons, List.foldl_nil, cAdd]
    have h' : cGetChar q.chars "ID".toList = cGetChar (cVertex p).chars "ID".toList := h.trans (cVertex_id p hp).symm
    rw [if_pos h']
  rw [e]
  exact ⟨rfl, fun v hv => by rw [List.mem_singleton] at hv; rw [hv]⟩

/-- **C199 fails** if a value for a period follows a value for all periods: the value for all periods is replaced. -/
theorem C199_period_violated (p q : CInfo) (hp : cHas p.chars "ID".toList = true) (hs : ∀ c ∈ p.chars, c ∈ q.chars) (h : cId q.chars = cId p.chars) (name : Tok)
    (v : CVertex) (hv : v ∈ cNodes [p, q]) (hn : ∀ c ∈ cAsk v name [], c ∈ p.chars) (extra : List CChar) : cParam v name extra = .ok q.value := by
  have hpar : (cVertex p).params = [p] := by
    unfold cVertex
    dsimp only
    split <;> rfl
  have e : cNodes [p, q] = [⟨(cVertex p).chars, [⟨p.chars, q.value⟩]⟩] := by
    unfold cNodes
    simp only [List.foldl_cons, List.foldl_nil, cAdd]
    have h' : cGetChar q.chars "ID".toList = cGetChar (cVertex p).chars "ID".toList := h.trans (cVertex_id p hp).symm
    rw [if_pos h', hpar, cPush, if_pos ((cSubset_iff _ _).2 hs)]
  rw [e, List.mem_singleton] at hv
  have : cFetch v name [] = .one ⟨p.chars, q.value⟩ := by
    unfold cFetch
    change (match cMulti v.params (cAsk v name []) with | [] => CFound.none | [i] => .one i | _ :: _ :: _ => .many) = _
    have : cMulti v.params (cAsk v name []) = [⟨p.chars, q.value⟩] := by
      unfold cMulti
      rw [show v.params = [⟨p.chars, q.value⟩] by rw [hv]]
      rw [List.filter_cons_of_pos (by rw [cSubset_iff]; exact hn)]
      rfl
    rw [this]
  unfold cParam
  rw [this]

/-! ## C200: per unit -/

/-- no stored parameter has all the characteristics of an earlier one -/
def CStored (l : List CInfo) : Prop := l.Pairwise (fun a b => ¬ ∀ c ∈ a.chars, c ∈ b.chars)

theorem cPush_mem {l : List CInfo} {p b : CInfo} (h : b ∈ cPush l p) : (∃ a ∈ l, a.chars = b.chars) ∨ b = p := by
  induction l with
  | nil => right; exact List.mem_singleton.1 h
  | cons e l ih =>
    rw [cPush] at h
    split at h
    · left
      rcases List.mem_cons.1 h with rfl | h
      · exact ⟨e, List.mem_cons_self, rfl⟩
      · exact ⟨b, List.mem_cons_of_mem _ h, rfl⟩
    · rcases List.mem_cons.1 h with rfl | h
      · exact Or.inl ⟨b, List.mem_cons_self, rfl⟩
      · rcases ih h with ⟨a, h1, h2⟩ | h
        · exact Or.inl ⟨a, List.mem_cons_of_mem _ h1, h2⟩
        · exact Or.inr h

theorem cPush_stored {l : List CInfo} (h : CStored l) (p : CInfo) : CStored (cPush l p) := by
  induction l with
  | nil => exact List.pairwise_singleton _ _
  | cons e l ih =>
    unfold CStored at h
    rw [List.pairwise_cons] at h
    rw [cPush]
    split
    · exact List.pairwise_cons.2 ⟨h.1, h.2⟩
    · next hs =>
      refine List.pairwise_cons.2 ⟨?_, ih h.2⟩
      intro b hb hc
      rcases cPush_mem hb with ⟨a, h1, h2⟩ | rfl
      · exact h.1 a h1 (h2 ▸ hc)
      · exact hs ((cSubset_iff _ _).2 hc)

theorem cStored_fold (ps : List CInfo) : CStored (ps.foldl cPush []) := by
  have key : ∀ (ps s : List CInfo), CStored s → CStored (ps.foldl cPush s) := by
    intro ps
    induction ps with
    | nil => intro s h; exact h
    | cons p ps ih => intro s h; exact ih _ (cPush_stored h p)
  exact key ps [] List.Pairwise.nil

theorem cStored_nodup {l : List CInfo} (h : CStored l) : (l.map (·.chars)).Nodup := by
  induction l with
  | nil => simp
  | cons e l ih =>
    unfold CStored at h
    rw [List.pairwise_cons] at h
    rw [List.map_cons, List.nodup_cons]
    refine ⟨?_, ih h.2⟩
    intro hm
    obtain ⟨b, hb, e1⟩ := List.mem_map.1 hm
    exact h.1 b hb (by rw [e1]; exact fun c h => h)

theorem cUpdate_stored {l : List CInfo} (h : CStored l) {i : CInfo} (hi : i ∈ l) (w : CVal) :
    cUpdate l ⟨i.chars, w⟩ = l.map (fun e => if e.chars = i.chars then ⟨e.chars, w⟩ else e) := by
  induction l with
  | nil => exact absurd hi (by simp)
  | cons a l ih =>
    have hn := cStored_nodup h
    unfold CStored at h
    rw [List.pairwise_cons] at h
    rw [List.map_cons, List.nodup_cons] at hn
    rcases List.mem_cons.1 hi with rfl | hi
    · rw [cUpdate, if_pos ((cSubset_iff _ _).2 (fun c h => h)), List.map_cons, if_pos rfl]
      congr 1
      conv_lhs => rw [← List.map_id l]
      apply List.map_congr_left
      intro e he
      rw [if_neg (fun h => hn.1 (List.mem_map.2 ⟨e, he, h⟩))]
      rfl
    · have hs : ¬ cSubset a.chars i.chars = true := fun hc => h.1 i hi ((cSubset_iff _ _).1 hc)
      have hc : ¬ a.chars = i.chars := fun hc => h.1 i hi (by rw [hc]; exact fun c h => h)
      rw [cUpdate, if_neg hs, List.map_cons, if_neg hc, ih h.2 hi]

/-- a value in per unit -/
def cHalf (base : Rat) : CVal → CVal
  | .dbl q => .dbl (q / base)
  | v => v

theorem cStored_map {l : List CInfo} (h : CStored l) (f : CInfo → CInfo) (hf : ∀ e ∈ l, (f e).chars = e.chars) : CStored (l.map f) := by
  unfold CStored at *
  rw [List.pairwise_map]
  refine List.Pairwise.imp_of_mem ?_ h
  intro a b ha hb hab
  rw [hf a ha, hf b hb]
  exact hab

theorem cScaleAll_spec (base : Rat) : ∀ (ms params : List CInfo), CStored params → (ms.map (·.chars)).Nodup → (∀ m ∈ ms, m ∈ params ∧ ∃ q, m.value = .dbl q) →
    cScaleAll base params ms = .ok (params.map (fun e => if e.chars ∈ ms.map (·.chars) then ⟨e.chars, cHalf base e.value⟩ else e)) := by
  intro ms
  induction ms with
  | nil =>
    intro params _ _ _
    rw [cScaleAll]
    congr 1
    conv_lhs => rw [← List.map_id params]
    apply List.map_congr_left
    intro e _
    simp
  | cons m ms ih =>
    intro params hs hn hm
    rw [List.map_cons, List.nodup_cons] at hn
    obtain ⟨h1, q, h2⟩ := hm m List.mem_cons_self
    rw [cScaleAll, h2]
    dsimp only
    rw [cUpdate_stored hs h1, ih]
    · rw [List.map_map]
      congr 1
      apply List.map_congr_left
      intro e he
      simp only [Function.comp]
      by_cases hc : e.chars = m.chars
      · have hem : e = m := by
          have hnd := cStored_nodup hs
          exact List.inj_on_of_nodup_map hnd he h1 hc
        have hno : ¬ m.chars ∈ ms.map (·.chars) := hn.1
        subst hem
        simp only [if_true, List.map_cons, List.mem_cons, true_or, if_neg hno, h2, cHalf]
      · rw [if_neg hc]
        simp only [List.map_cons, List.mem_cons, hc, false_or]
    · refine cStored_map hs _ ?_
      intro e _
      split <;> rfl
    · exact hn.2
    · intro m' hm'
      obtain ⟨h3, h4⟩ := hm m' (List.mem_cons_of_mem _ hm')
      refine ⟨List.mem_map.2 ⟨m', h3, ?_⟩, h4⟩
      rw [if_neg (fun h => hn.1 (List.mem_map.2 ⟨m', hm', h⟩))]

/-- the parameter has this name -/
def CNamed (e : CInfo) (n : Tok) : Prop := (⟨"name".toList, .str n, []⟩ : CChar) ∈ e.chars

instance (e : CInfo) (n : Tok) : Decidable (CNamed e n) := by unfold CNamed; infer_instance

theorem cScale_spec (base : Rat) {params : List CInfo} (hs : CStored params) (n : Tok) (hd : ∀ e ∈ params, CNamed e n → ∃ q, e.value = .dbl q) :
    cScale base params n = .ok (params.map (fun e => if CNamed e n then ⟨e.chars, cHalf base e.value⟩ else e)) := by
  unfold cScale
  rw [cScaleAll_spec base (cMulti params [⟨"name".toList, .str n, []⟩]) params hs ((List.filter_sublist.map _).nodup (cStored_nodup hs))]
  · congr 1
    apply List.map_congr_left
    intro e he
    have : e.chars ∈ (cMulti params [⟨"name".toList, .str n, []⟩]).map (·.chars) ↔ CNamed e n := by
      rw [List.mem_map]
      constructor
      · rintro ⟨m, hm, e1⟩
        have := ((cMulti_mem _ _ _).1 hm).2 _ List.mem_cons_self
        unfold CNamed
        rw [← e1]
        exact this
      · intro h
        refine ⟨e, (cMulti_mem _ _ _).2 ⟨he, ?_⟩, rfl⟩
        intro c hc
        rw [List.mem_singleton] at hc
        exact hc ▸ h
    simp only [this]
  · intro m hm
    obtain ⟨h1, h2⟩ := (cMulti_mem _ _ _).1 hm
    exact ⟨h1, hd m h1 (h2 _ List.mem_cons_self)⟩

theorem cScaleNames_spec (base : Rat) : ∀ (ns : List Tok) (params : List CInfo), CStored params → ns.Nodup →
    (∀ e ∈ params, ∀ n n', CNamed e n → CNamed e n' → n = n') → (∀ e ∈ params, ∀ n ∈ ns, CNamed e n → ∃ q, e.value = .dbl q) →
    ns.foldlM (cScale base) params = .ok (params.map (fun e => if ∃ n ∈ ns, CNamed e n then ⟨e.chars, cHalf base e.value⟩ else e)) := by
  intro ns
  induction ns with
  | nil =>
    intro params _ _ _ _
    rw [List.foldlM_nil]
    change Except.ok params = _
    congr 1
    conv_lhs => rw [← List.map_id params]
    apply List.map_congr_left
    intro e _
    simp
  | cons n ns ih =>
    intro params hs hn h1 hd
    rw [List.nodup_cons] at hn
    rw [List.foldlM_cons, cScale_spec base hs n (fun e he => hd e he n List.mem_cons_self)]
    have hch : ∀ e : CInfo, (if CNamed e n then (⟨e.chars, cHalf base e.value⟩ : CInfo) else e).chars = e.chars := by
      intro e
      split <;> rfl
    have hnm : ∀ (e : CInfo) (k : Tok), CNamed (if CNamed e n then (⟨e.chars, cHalf base e.value⟩ : CInfo) else e) k ↔ CNamed e k := by
      intro e k
      show _ ∈ CInfo.chars _ ↔ _
      rw [hch e]
      rfl
    change ns.foldlM (cScale base) (params.map _) = _
    rw [ih]
    · rw [List.map_map]
      congr 1
      apply List.map_congr_left
      intro e he
      simp only [Function.comp, hnm]
      by_cases hc : CNamed e n
      · have hno : ¬ ∃ k ∈ ns, CNamed e k := fun ⟨k, hk, h⟩ => hn.1 (h1 e he n k hc h ▸ hk)
        simp only [if_neg hno, if_pos hc]
        rw [if_pos ⟨n, List.mem_cons_self, hc⟩]
      · simp only [if_neg hc, List.mem_cons]
        congr 1
        apply propext
        constructor
        · rintro ⟨k, hk, h⟩; exact ⟨k, List.mem_cons_of_mem _ hk, h⟩
        · rintro ⟨k, hk, h⟩
          rcases List.mem_cons.1 hk with rfl | hk
          · exact absurd h hc
          · exact ⟨k, hk, h⟩
    · exact cStored_map hs _ (fun e _ => hch e)
    · exact hn.2
    · intro e he k k'
      obtain ⟨e', he', rfl⟩ := List.mem_map.1 he
      rw [hnm, hnm]
      exact h1 e' he' k k'
    · intro e he k hk h
      obtain ⟨e', he', rfl⟩ := List.mem_map.1 he
      rw [hnm] at h
      have : ¬ CNamed e' n := fun hc => hn.1 (h1 e' he' n k hc h ▸ hk)
      rw [if_neg this]
      exact hd e' he' k (List.mem_cons_of_mem _ hk) h

/-- the powers among the parameters of an element -/
def CPower (type : CVal) (n : Tok) : Prop :=
  (type = .str "bus".toList ∧ n = "Pd".toList) ∨
  (type = .str "generator".toList ∧ (n = "active power max limit".toList ∨ n = "Pmin".toList ∨ n = "Qmax".toList ∨ n = "Qmin".toList ∨ n = "Pfix".toList ∨ n = "Qfix".toList)) ∨
  (type = .str "branch".toList ∧ n = "maxPflow".toList)

theorem cPowers_iff (type : CVal) (n : Tok) : n ∈ cPowers type ↔ CPower type n := by
  unfold cPowers CPower
  by_cases h1 : type = .str "bus".toList
  · subst h1
    simp only [if_true, List.mem_singleton, true_and]
    constructor
    · intro h; exact Or.inl h
    · rintro (h | ⟨h, _⟩ | ⟨h, _⟩)
      · exact h
      · exact absurd h (by decide)
      · exact absurd h (by decide)
  · rw [if_neg h1]
    by_cases h2 : type = .str "generator".toList
    · subst h2
      simp only [if_true, List.mem_cons, List.not_mem_nil, or_false, true_and]
      constructor
      · intro h; exact Or.inr (Or.inl h)
      · rintro (⟨h, _⟩ | h | ⟨h, _⟩)
        · exact absurd h (by decide)
        · exact h
        · exact absurd h (by decide)
    · rw [if_neg h2]
      by_cases h3 : type = .str "branch".toList
      · subst h3
        simp only [if_true, List.mem_singleton, true_and]
        constructor
        · intro h; exact Or.inr (Or.inr h)
        · rintro (⟨h, _⟩ | ⟨h, _⟩ | h)
          · exact absurd h (by decide)
          · exact absurd h (by decide)
          · exact h
      · rw [if_neg h3]
        constructor
        · intro h; exact absurd h (by simp)
        · rintro (⟨h, _⟩ | ⟨h, _⟩ | ⟨h, _⟩)
          · exact absurd h h1
          · exact absurd h h2
          · exact absurd h h3

theorem cPowers_nodup (type : CVal) : (cPowers type).Nodup := by
  unfold cPowers
  split
  · decide
  · split
    · decide
    · split
      · decide
      · exact List.nodup_nil

/-- the type of an element -/
def cType (v : CVertex) : CVal := (cGetChar v.chars "type".toList).value

/-- an element as it is loaded: parameters have one name, powers are numbers -/
structure CGiven (v : CVertex) : Prop where
  stored : CStored v.params
  single : ∀ e ∈ v.params, ∀ n n', CNamed e n → CNamed e n' → n = n'
  numbers : ∀ e ∈ v.params, ∀ n, CPower (cType v) n → CNamed e n → ∃ q, e.value = .dbl q

theorem cFetch_map (v : CVertex) (g : CInfo → CInfo) (hg : ∀ e, (g e).chars = e.chars) (name : Tok) (extra : List CChar) :
    cFetch ⟨v.chars, v.params.map g⟩ name extra = match cFetch v name extra with | .none => .none | .one i => .one (g i) | .many => .many := by
  have : cMulti (v.params.map g) (cAsk v name extra) = (cMulti v.params (cAsk v name extra)).map g := by
    unfold cMulti
    rw [List.filter_map]
    congr 1
    apply List.filter_congr
    intro e _
    simp only [Function.comp, hg]
  unfold cFetch
  change (match cMulti (v.params.map g) (cAsk v name extra) with | [] => CFound.none | [i] => .one i | _ :: _ :: _ => .many) =
    (match (match cMulti v.params (cAsk v name extra) with | [] => CFound.none | [i] => .one i | _ :: _ :: _ => .many) with | .none => .none | .one i => .one (g i) | .many => .many)
  rw [this]
  cases cMulti v.params (cAsk v name extra) with
  | nil => rfl
  | cons a l => cases l <;> rfl

theorem cFetch_named {v : CVertex} {name : Tok} {extra : List CChar} {i : CInfo} (h : cFetch v name extra = .one i) : i ∈ v.params ∧ CNamed i name := by
  unfold cFetch at h
  change (match cMulti v.params (cAsk v name extra) with | [] => CFound.none | [i] => .one i | _ :: _ :: _ => .many) = _ at h
  have hi : i ∈ cMulti v.params (cAsk v name extra) := by
    revert h
    cases cMulti v.params (cAsk v name extra) with
    | nil => intro h; cases h
    | cons a l =>
      cases l with
      | nil => intro h; cases h; simp
      | cons b l => intro h; cases h
  obtain ⟨h1, h2⟩ := (cMulti_mem _ _ _).1 hi
  refine ⟨h1, h2 _ ?_⟩
  unfold cAsk
  simp

/-- **C200.** After the conversion every power of every element is the given power divided by the base power, in every period, and every other parameter is as it was given. -/
theorem C200_perunit (base : Rat) (vs : List CVertex) (hv : ∀ v ∈ vs, CGiven v) :
    ∃ ws, cPerUnit base vs = .ok ws ∧ List.Forall₂ (fun v w => w.chars = v.chars ∧ CGiven w ∧ ∀ name extra,
      (CPower (cType v) name → cDouble w name extra = (cDouble v name extra).map (fun q => q / base)) ∧
      (¬ CPower (cType v) name → cParam w name extra = cParam v name extra ∧ cFetch w name extra = cFetch v name extra)) vs ws := by
  have key : ∀ v, CGiven v → ∃ w, cScaleVertex base v = .ok w ∧ (w.chars = v.chars ∧ CGiven w ∧ ∀ name extra,
      (CPower (cType v) name → cDouble w name extra = (cDouble v name extra).map (fun q => q / base)) ∧
      (¬ CPower (cType v) name → cParam w name extra = cParam v name extra ∧ cFetch w name extra = cFetch v name extra)) := by
    intro v h
    have hs := cScaleNames_spec base (cPowers (cType v)) v.params h.stored (cPowers_nodup _) h.single (fun e he n hn => h.numbers e he n ((cPowers_iff _ _).1 hn))
    let g : CInfo → CInfo := fun e => if ∃ n ∈ cPowers (cType v), CNamed e n then ⟨e.chars, cHalf base e.value⟩ else e
    have hg : ∀ e, (g e).chars = e.chars := by
      intro e
      show (if _ then _ else _ : CInfo).chars = _
      split <;> rfl
    have hgn : ∀ e n, CNamed (g e) n ↔ CNamed e n := by
      intro e n
      unfold CNamed
      rw [hg]
    refine ⟨⟨v.chars, v.params.map g⟩, ?_, rfl, ?_, ?_⟩
    · unfold cScaleVertex
      change ((cPowers (cType v)).foldlM (cScale base) v.params >>= _) = _
      rw [hs]
      rfl
    · refine ⟨cStored_map h.stored g (fun e _ => hg e), ?_, ?_⟩
      · intro e he n n'
        obtain ⟨e', he', rfl⟩ := List.mem_map.1 he
        rw [hgn, hgn]
        exact h.single e' he' n n'
      · intro e he n hn
        obtain ⟨e', he', rfl⟩ := List.mem_map.1 he
        rw [hgn]
        intro hc
        obtain ⟨q, hq⟩ := h.numbers e' he' n hn hc
        refine ⟨q / base, ?_⟩
        show (if _ then _ else _ : CInfo).value = _
        rw [if_pos ⟨n, (cPowers_iff _ _).2 hn, hc⟩]
        simp only [hq, cHalf]
    · intro name extra
      have hval : ∀ i, i ∈ v.params → CNamed i name → (CPower (cType v) name → (g i).value = cHalf base i.value) ∧ (¬ CPower (cType v) name → (g i).value = i.value) := by
        intro i hi hn
        constructor
        · intro hp
          show (if _ then _ else _ : CInfo).value = _
          rw [if_pos ⟨name, (cPowers_iff _ _).2 hp, hn⟩]
        · intro hp
          show (if _ then _ else _ : CInfo).value = _
          rw [if_neg]
          rintro ⟨n, h1, h2⟩
          exact hp (h.single i hi n name h2 hn ▸ (cPowers_iff _ _).1 h1)
      have hpar : ∀ f : CVal → CVal, f (.bool false) = .bool false → (∀ i, i ∈ v.params → CNamed i name → (g i).value = f i.value) →
          cParam ⟨v.chars, v.params.map g⟩ name extra = (cParam v name extra).map f := by
        intro f hf hi
        unfold cParam
        rw [cFetch_map v g hg name [], cFetch_map v g hg name extra]
        cases h1 : cFetch v name [] with
        | none => simp only [cNone, Except.map, hf]
        | one i =>
          obtain ⟨h2, h3⟩ := cFetch_named h1
          simp only [Except.map, hi i h2 h3]
        | many =>
          cases h4 : cFetch v name extra with
          | none => simp only [cNone, Except.map, hf]
          | one i =>
            obtain ⟨h2, h3⟩ := cFetch_named h4
            simp only [Except.map, hi i h2 h3]
          | many => rfl
      constructor
      · intro hp
        unfold cDouble
        rw [hpar (cHalf base) rfl (fun i h1 h2 => (hval i h1 h2).1 hp)]
        cases cParam v name extra with
        | error e => rfl
        | ok x => cases x <;> rfl
      · intro hp
        constructor
        · rw [hpar id rfl (fun i h1 h2 => (hval i h1 h2).2 hp)]
          cases cParam v name extra <;> rfl
        · rw [cFetch_map v g hg name extra]
          cases h1 : cFetch v name extra with
          | none => rfl
          | many => rfl
          | one i =>
            obtain ⟨h2, h3⟩ := cFetch_named h1
            have e1 := (hval i h2 h3).2 hp
            have e2 := hg i
            show CFound.one (g i) = .one i
            congr 1
            cases hgi : g i
            rw [hgi] at e1 e2
            cases i
            cases e1
            cases e2
            rfl
  unfold cPerUnit
  clear * - key hv
  induction vs with
  | nil => exact ⟨[], rfl, List.Forall₂.nil⟩
  | cons v vs ih =>
    obtain ⟨w, h1, h2⟩ := key v (hv v List.mem_cons_self)
    obtain ⟨ws, h3, h4⟩ := ih (fun v h => hv v (List.mem_cons_of_mem _ h))
    refine ⟨w :: ws, ?_, List.Forall₂.cons h2 h4⟩
    rw [List.mapM_cons, h1]
    change (vs.mapM (cScaleVertex base) >>= fun l => pure (w :: l)) = _
    rw [h3]
    rfl

/-- the parameters that Python loads: `create_parameter` and then `load_value` for each characteristic and for the value -/
def cLoads (old : CInfo) (l : List (Tok × CVal × Bool)) : CInfo := l.foldl (fun c q => cLoad c q.1 q.2.1 q.2.2) ⟨[], old.value⟩

theorem cSetChar_names {l : List CChar} {c : CChar} {vec : Bool} (h : (l.map (·.name)).Nodup) :
    ((cSetChar l c vec).map (·.name)).Nodup ∧ ∀ n, n ∈ (cSetChar l c vec).map (·.name) → n ∈ l.map (·.name) ∨ n = c.name := by
  induction l with
  | nil => exact ⟨by simp [cSetChar], fun n hn => Or.inr (by simpa [cSetChar] using hn)⟩
  | cons e l ih =>
    rw [List.map_cons, List.nodup_cons] at h
    obtain ⟨h1, h2⟩ := ih h.2
    rw [cSetChar]
    split
    · next hc =>
      have e1 : (if vec = true then (⟨e.name, e.value, e.values ++ c.values⟩ : CChar) else c).name = e.name := by
        split
        · rfl
        · exact hc.symm
      rw [List.map_cons, e1]
      exact ⟨List.nodup_cons.2 h, fun n hn => Or.inl hn⟩
    · next hc =>
      rw [List.map_cons]
      refine ⟨List.nodup_cons.2 ⟨?_, h1⟩, ?_⟩
      · intro hm
        rcases h2 _ hm with hm | hm
        · exact h.1 hm
        · exact hc hm
      · intro n hn
        rcases List.mem_cons.1 hn with rfl | hn
        · left; simp
        · rcases h2 n hn with hn | hn
          · left; exact List.mem_cons_of_mem _ hn
          · exact Or.inr hn

theorem cPush_from {done s : List CInfo} (h : ∀ e ∈ s, (∃ p ∈ done, p.chars = e.chars) ∧ ∃ q ∈ done, q.value = e.value ∧ ∀ c ∈ e.chars, c ∈ q.chars) (p : CInfo) :
    ∀ e ∈ cPush s p, (∃ q ∈ done ++ [p], q.chars = e.chars) ∧ ∃ q ∈ done ++ [p], q.value = e.value ∧ ∀ c ∈ e.chars, c ∈ q.chars := by
  have lift : ∀ e : CInfo, (∃ p ∈ done, p.chars = e.chars) ∧ (∃ q ∈ done, q.value = e.value ∧ ∀ c ∈ e.chars, c ∈ q.chars) →
      (∃ q ∈ done ++ [p], q.chars = e.chars) ∧ ∃ q ∈ done ++ [p], q.value = e.value ∧ ∀ c ∈ e.chars, c ∈ q.chars := by
    rintro e ⟨⟨a, h1, h2⟩, b, h3, h4⟩
    exact ⟨⟨a, List.mem_append_left _ h1, h2⟩, b, List.mem_append_left _ h3, h4⟩
  have hp : p ∈ done ++ [p] := List.mem_append_right _ (by simp)
  induction s with
  | nil =>
    intro e he
    rw [cPush, List.mem_singleton] at he
    subst he
    exact ⟨⟨e, hp, rfl⟩, e, hp, rfl, fun c h => h⟩
  | cons a s ih =>
    intro e he
    rw [cPush] at he
    split at he
    · next hs =>
      rcases List.mem_cons.1 he with rfl | he
      · refine ⟨?_, p, hp, rfl, (cSubset_iff _ _).1 hs⟩
        exact (lift a (h a List.mem_cons_self)).1
      · exact lift e (h e (List.mem_cons_of_mem _ he))
    · rcases List.mem_cons.1 he with rfl | he
      · exact lift e (h e List.mem_cons_self)
      · exact ih (fun e he => h e (List.mem_cons_of_mem _ he)) e he

/-- **C200.** Elements loaded by Python are such elements: the names of the characteristics of a parameter are different, so a parameter has one name. -/
theorem C200_loaded (ps : List CInfo) (hid : ∀ p ∈ ps, cHas p.chars "ID".toList = true) (hl : ∀ p ∈ ps, ∃ old l, p = cLoads old l)
    (hd : ∀ v ∈ cNodes ps, ∀ p ∈ ps, cId p.chars = cId v.chars → ∀ n, CPower (cType v) n → CNamed p n → ∃ q, p.value = .dbl q) :
    ∀ v ∈ cNodes ps, CGiven v := by
  have hn : ∀ p ∈ ps, (p.chars.map (·.name)).Nodup := by
    intro p hp
    obtain ⟨old, l, rfl⟩ := hl p hp
    have key : ∀ (l : List (Tok × CVal × Bool)) (c : CInfo), (c.chars.map (·.name)).Nodup → ((l.foldl (fun c q => cLoad c q.1 q.2.1 q.2.2) c).chars.map (·.name)).Nodup := by
      intro l
      induction l with
      | nil => intro c h; exact h
      | cons q l ih =>
        intro c h
        refine ih _ ?_
        unfold cLoad
        dsimp only
        split
        · exact h
        · exact (cSetChar_names h).1
    exact key l _ (by simp)
  intro v hv
  have he := (C199_elements_partial ps hid).params v hv
  have hmem : ∀ (qs done s : List CInfo), (∀ e ∈ s, (∃ p ∈ done, p.chars = e.chars) ∧ ∃ q ∈ done, q.value = e.value ∧ ∀ c ∈ e.chars, c ∈ q.chars) →
      ∀ e : CInfo, e ∈ qs.foldl cPush s → (∃ p ∈ done ++ qs, p.chars = e.chars) ∧ ∃ q ∈ done ++ qs, q.value = e.value ∧ ∀ c ∈ e.chars, c ∈ q.chars := by
    intro qs
    induction qs with
    | nil => intro done s h; rwa [List.append_nil]
    | cons p qs ih =>
      intro done s h
      have := ih (done ++ [p]) (cPush s p) (cPush_from h p)
      rwa [List.append_assoc] at this
  have hm := hmem (ps.filter (fun p => decide (cId p.chars = cId v.chars))) [] [] (by simp)
  rw [← he, List.nil_append] at hm
  refine ⟨he ▸ cStored_fold _, ?_, ?_⟩
  · intro e hev n n' h1 h2
    obtain ⟨p, hp, e1⟩ := (hm e hev).1
    have := hn p (List.mem_filter.1 hp).1
    unfold CNamed at h1 h2
    rw [← e1] at h1 h2
    have := List.inj_on_of_nodup_map this h1 h2 rfl
    injection this with _ h3
    injection h3
  · intro e hev n hp h1
    obtain ⟨q, hq, e1, e2⟩ := (hm e hev).2
    rw [← e1]
    obtain ⟨h3, h4⟩ := List.mem_filter.1 hq
    exact hd v hv q h3 (by simpa using h4) n hp (e2 _ h1)

end Pyensys
