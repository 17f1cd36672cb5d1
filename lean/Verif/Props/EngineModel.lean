import Verif.Props.EngineRun
import Mathlib.Tactic.FieldSimp

/-!
# The model that the compiled engine builds of what it was given (C203)
-/

namespace Pyensys

/-! ## lines of the costs -/

theorem cFetch_one {v : CVertex} {name : Tok} {extra : List CChar} {i : CInfo} (h : cFetch v name extra = .one i) : cMulti v.params (cAsk v name extra) = [i] := by
  unfold cFetch at h
  change (match cMulti v.params (cAsk v name extra) with | [] => CFound.none | [i] => .one i | _ :: _ :: _ => .many) = _ at h
  revert h
  cases cMulti v.params (cAsk v name extra) with
  | nil => intro h; cases h
  | cons a l =>
    cases l with
    | nil => intro h; cases h; rfl
    | cons b l => intro h; cases h

theorem cFetch_of {v : CVertex} {name : Tok} {extra : List CChar} {i : CInfo} (h : cMulti v.params (cAsk v name extra) = [i]) : cFetch v name extra = .one i := by
  unfold cFetch
  change (match cMulti v.params (cAsk v name extra) with | [] => CFound.none | [i] => .one i | _ :: _ :: _ => .many) = _
  rw [h]

theorem cFetch_congr {v w : CVertex} {name : Tok} {extra : List CChar} (h : cMulti v.params (cAsk v name extra) = cMulti w.params (cAsk w name extra)) : cFetch v name extra = cFetch w name extra := by
  unfold cFetch
  change (match cMulti v.params (cAsk v name extra) with | [] => CFound.none | [i] => .one i | _ :: _ :: _ => .many) = (match cMulti w.params (cAsk w name extra) with | [] => CFound.none | [i] => .one i | _ :: _ :: _ => .many)
  rw [h]

theorem cMulti_append (a b : List CInfo) (l : List CChar) : cMulti (a ++ b) l = cMulti a l ++ cMulti b l := List.filter_append ..

theorem cMulti_cons (e : CInfo) (b : List CInfo) (l : List CChar) : cMulti (e :: b) l = (if cSubset l e.chars = true then [e] else []) ++ cMulti b l := by
  unfold cMulti
  rw [List.filter_cons]
  split <;> rfl

/-- the entry of the cost function, with its lines -/
theorem cPutLines_spec {v : CVertex} {i : CInfo} (hi : cFetch v "cost function".toList [] = .one i) (h1 : cHas i.chars "slopes".toList = false) (h2 : cHas i.chars "y_intercepts".toList = false)
    (hs : ∀ n, CNamed i n → n = "cost function".toList) (L : List (Rat × Rat)) :
    cFetch ⟨v.chars, cPutLines (cLineChars L) i.chars v.params⟩ "cost function".toList [] = .one (cWithLines i L) ∧
    ∀ n extra, n ≠ "cost function".toList → cFetch ⟨v.chars, cPutLines (cLineChars L) i.chars v.params⟩ n extra = cFetch v n extra := by
  have hm := cFetch_one hi
  unfold cMulti at hm
  rw [List.filter_eq_cons_iff] at hm
  obtain ⟨pre, post, hsplit, hpre, hi1, hpost⟩ := hm
  rw [List.filter_eq_nil_iff] at hpost
  have hput : cPutLines (cLineChars L) i.chars v.params = pre ++ cWithLines i L :: post := by
    rw [hsplit]
    clear hsplit hpost
    induction pre with
    | nil =>
      rw [List.nil_append, List.nil_append, cPutLines, if_pos ((cSubset_iff _ _).2 (fun c h => h))]
      rfl
    | cons e pre ih =>
      rw [List.cons_append, List.cons_append, cPutLines, if_neg, ih (fun x hx => hpre x (List.mem_cons_of_mem _ hx))]
      intro hc
      apply hpre e List.mem_cons_self
      rw [cSubset_iff] at hi1 hc ⊢
      exact fun c h => hc c (hi1 c h)
  have hchars := cWithLines_chars L h1 h2
  rw [hput]
  constructor
  · apply cFetch_of
    show cMulti (pre ++ cWithLines i L :: post) (cAsk v "cost function".toList []) = _
    rw [cMulti_append, cMulti_cons]
    have e1 : cMulti pre (cAsk v "cost function".toList []) = [] := List.filter_eq_nil_iff.2 hpre
    have e2 : cMulti post (cAsk v "cost function".toList []) = [] := List.filter_eq_nil_iff.2 hpost
    rw [e1, e2, if_pos]
    · rfl
    · rw [cSubset_iff] at hi1 ⊢
      intro c hc
      rw [hchars]
      exact List.mem_append_left _ (hi1 c hc)
  · intro n extra hn
    apply cFetch_congr
    show cMulti (pre ++ cWithLines i L :: post) (cAsk v n extra) = _
    rw [hsplit, cMulti_append, cMulti_cons, cMulti_append, cMulti_cons]
    have hno : ¬ cSubset (cAsk v n extra) i.chars = true := by
      rw [cSubset_iff]
      intro hc
      exact hn (hs n (hc _ (by unfold cAsk; simp)))
    have hno' : ¬ cSubset (cAsk v n extra) (cWithLines i L).chars = true := by
      rw [cSubset_iff]
      intro hc
      have hin := hc (⟨"name".toList, .str n, []⟩ : CChar) (by unfold cAsk; simp)
      rw [hchars, List.mem_append] at hin
      rcases hin with hin | hin
      · exact hn (hs n hin)
      · unfold cLineChars at hin
        rcases List.mem_cons.1 hin with hin | hin
        · injection hin with h3 _ _
          exact absurd h3 (by decide +kernel)
        · rw [List.mem_singleton] at hin
          injection hin with h3 _ _
          exact absurd h3 (by decide +kernel)
    rw [if_neg hno, if_neg hno']

theorem cParam_congr {v w : CVertex} {name : Tok} (h : ∀ extra, cFetch w name extra = cFetch v name extra) (extra : List CChar) : cParam w name extra = cParam v name extra := by
  unfold cParam
  rw [h [], h extra]

/-- an element before and after its cost was linearised -/
structure CLined (base : Rat) (s0 : CWhen) (v w : CVertex) : Prop where
  chars : w.chars = v.chars
  same : ∀ n extra, n ≠ "cost function".toList → cFetch w n extra = cFetch v n extra
  cost : cIsGen v = true → (cFetch v "cost function".toList [] = .none → cFetch w "cost function".toList [] = .none) ∧
    ∀ i, cFetch v "cost function".toList [] = .one i → ∃ L, cLinearise i base (cVal v "active power max limit".toList s0) (cVal v "Pmin".toList s0) = .ok L ∧ cFetch w "cost function".toList [] = .one (cWithLines i L)

/-- the cost function of an element, if it is a generator: none, or one that is not yet linearised -/
def CCostGiven (v : CVertex) : Prop := cIsGen v = true → cFetch v "cost function".toList [] = .none ∨
  ∃ i m n cs, cFetch v "cost function".toList [] = .one i ∧ CCost i m n cs ∧ ∀ n, CNamed i n → n = "cost function".toList

theorem cAddLines_none {base : Rat} {v : CVertex} (h : cFetch v "cost function".toList [] = .none) (s : CWhen) : cAddLines base v s = .ok v := by
  unfold cAddLines cCostInfo
  rw [h]
  rfl

theorem cAddLines_done {base : Rat} {v : CVertex} {i : CInfo} (h : cFetch v "cost function".toList [] = .one i) (hs : cHas i.chars "slopes".toList = true) (s : CWhen) : cAddLines base v s = .ok v := by
  unfold cAddLines cCostInfo
  rw [h]
  show (if cHas i.chars "slopes".toList = true then _ else _) = _
  rw [if_pos hs]

theorem foldE_fix {ε α σ : Type} (f : σ → α → Except ε σ) (s : σ) (l : List α) (h : ∀ a ∈ l, f s a = .ok s) : l.foldlM f s = .ok s := by
  induction l with
  | nil => rfl
  | cons a l ih =>
    rw [foldE_cons, h a List.mem_cons_self]
    exact ih (fun b hb => h b (List.mem_cons_of_mem _ hb))

theorem cLineName1 : "slopes".toList ≠ "y_intercepts".toList := by decide +kernel

theorem cPrepare_one {base : Rat} {s0 : CWhen} {subs : List CWhen} {v w : CVertex} (hc : CCostGiven v) (h : (if cIsGen v = true then (s0 :: subs).foldlM (cAddLines base) v else .ok v) = .ok w) : CLined base s0 v w := by
  by_cases hg : cIsGen v = true
  · rw [if_pos hg] at h
    rcases hc hg with hn | ⟨i, m, n, cs, hi, hcost, hs⟩
    · rw [foldE_fix _ _ _ (fun s _ => cAddLines_none hn s)] at h
      cases h
      exact ⟨rfl, fun _ _ _ => rfl, fun _ => ⟨fun h => h, fun i hi => by rw [hn] at hi; cases hi⟩⟩
    · rw [foldE_cons] at h
      obtain ⟨v1, h1, h2⟩ := (bindE_iff _ _ _).1 h
      unfold cAddLines cCostInfo at h1
      rw [hi] at h1
      change (if cHas i.chars "slopes".toList = true then _ else _) = _ at h1
      rw [hcost.noSlopes] at h1
      simp only [Bool.false_eq_true, if_false] at h1
      obtain ⟨mx, h3, h1⟩ := (bindE_iff _ _ _).1 h1
      obtain ⟨mn, h4, h1⟩ := (bindE_iff _ _ _).1 h1
      obtain ⟨L, h5, h1⟩ := (bindE_iff _ _ _).1 h1
      cases h1
      obtain ⟨p1, p2⟩ := cPutLines_spec hi hcost.noSlopes hcost.noIntercepts hs L
      have hsl : cHas (cWithLines i L).chars "slopes".toList = true := by
        rw [cWithLines_chars L hcost.noSlopes hcost.noIntercepts, cHas_append]
        unfold cLineChars cHas
        simp
      rw [foldE_fix _ _ _ (fun s _ => cAddLines_done p1 hsl s)] at h2
      cases h2
      refine ⟨rfl, fun n extra hn => p2 n extra hn, fun _ => ⟨fun hn => ?_, fun j hj => ?_⟩⟩
      · rw [hi] at hn; cases hn
      · rw [hi] at hj
        cases hj
        refine ⟨L, ?_, p1⟩
        unfold cVal
        rw [okD_ok h3, okD_ok h4]
        exact h5
  · rw [if_neg hg] at h
    cases h
    exact ⟨rfl, fun _ _ _ => rfl, fun h => absurd h hg⟩

/-- **C203** the cost function of each generator gets its lines, those of the limits of the first period; nothing else changes -/
theorem C203_lines_partial (base : Rat) (s0 : CWhen) (subs : List CWhen) (vs ws : List CVertex) (hc : ∀ v ∈ vs, CCostGiven v) (h : cPrepare base (s0 :: subs) vs = .ok ws) : List.Forall₂ (CLined base s0) vs ws := by
  unfold cPrepare at h
  rw [mapE_iff] at h
  induction h with
  | nil => exact .nil
  | cons h1 _ ih => exact .cons (cPrepare_one (hc _ List.mem_cons_self) h1) (ih (fun v hv => hc v (List.mem_cons_of_mem _ hv)))

/-! ## periods -/

theorem snoc_nodup {α : Type} {acc : List α} (h : acc.Nodup) (b : α) [Decidable (b ∈ acc)] : (if b ∈ acc then acc else acc ++ [b]).Nodup := by
  split
  · exact h
  · next hb =>
    rw [List.nodup_append]
    exact ⟨h, List.nodup_singleton _, fun x hx y hy => by rw [List.mem_singleton] at hy; subst hy; exact fun e => hb (e ▸ hx)⟩

theorem cPts_nodup (params : List CInfo) : (cPts params).Nodup := by
  have key : ∀ (l : List CInfo) (acc : List (List CVal)), acc.Nodup → (l.foldl cPtStep acc).Nodup := by
    intro l
    induction l with
    | nil => intro acc h; exact h
    | cons a l ih =>
      intro acc h
      rw [List.foldl_cons]
      apply ih
      unfold cPtStep
      split
      · exact snoc_nodup h _
      · exact h
  exact key _ _ List.nodup_nil

theorem cHrs_nodup {params : List CInfo} {hs : List Rat} (h : cHrs params = .ok hs) : hs.Nodup := by
  have key : ∀ (l : List CInfo) (acc out : List Rat), acc.Nodup → l.foldlM cHrStep acc = .ok out → out.Nodup := by
    intro l
    induction l with
    | nil => intro acc out hn h; cases h; exact hn
    | cons a l ih =>
      intro acc out hn h
      rw [foldE_cons] at h
      obtain ⟨acc', h1, h2⟩ := (bindE_iff _ _ _).1 h
      refine ih acc' out ?_ h2
      unfold cHrStep at h1
      split at h1
      · obtain ⟨q, _, h3⟩ := (bindE_iff _ _ _).1 h1
        have e := Except.ok.inj h3
        subst e
        exact snoc_nodup hn q
      · cases h1; exact hn
  exact key _ _ _ List.nodup_nil h

theorem cPeriods_nodup {vs : List CVertex} {ps : List (List CVal)} (h : cPeriods vs = .ok ps) : ps.Nodup ∧ ps ≠ [] := by
  induction vs with
  | nil => cases h
  | cons v vs ih =>
    rw [cPeriods] at h
    split at h
    · exact ih h
    · next hne => cases h; exact ⟨cPts_nodup _, hne⟩

theorem cHours_nodup {vs : List CVertex} {hs : List Rat} (h : cHours vs = .ok hs) : hs.Nodup ∧ hs ≠ [] := by
  induction vs with
  | nil => cases h
  | cons v vs ih =>
    rw [cHours] at h
    obtain ⟨q, h1, h2⟩ := (bindE_iff _ _ _).1 h
    split at h2
    · exact ih h2
    · next hne => cases h2; exact ⟨cHrs_nodup h1, hne⟩

/-- a characteristic of a parameter, the first with a name -/
def cFirst (i : CInfo) (name : Tok) : Option CChar := i.chars.find? (fun c => decide (c.name = name))

/-- the parameters of the first element that has any with a characteristic -/
def CFirstWith (name : Tok) (vs : List CVertex) (params : List CInfo) : Prop :=
  ∃ pre v post, vs = pre ++ v :: post ∧ params = v.params ∧ (∃ i ∈ v.params, (cFirst i name).isSome = true) ∧ ∀ u ∈ pre, ∀ i ∈ u.params, cFirst i name = none

theorem cPts_mem (params : List CInfo) (pt : List CVal) : pt ∈ cPts params ↔ ∃ i ∈ params, ∃ c, cFirst i "pt".toList = some c ∧ c.values = pt := by
  have key : ∀ (l : List CInfo) (acc : List (List CVal)), pt ∈ l.foldl cPtStep acc ↔ pt ∈ acc ∨ ∃ i ∈ l, ∃ c, cFirst i "pt".toList = some c ∧ c.values = pt := by
    intro l
    induction l with
    | nil => intro acc; simp
    | cons a l ih =>
      intro acc
      rw [List.foldl_cons, ih]
      have hstep : pt ∈ cPtStep acc a ↔ pt ∈ acc ∨ ∃ c, cFirst a "pt".toList = some c ∧ c.values = pt := by
        unfold cPtStep
        change pt ∈ (match cFirst a "pt".toList with | some c => if c.values ∈ acc then acc else acc ++ [c.values] | none => acc) ↔ _
        cases cFirst a "pt".toList with
        | none => simp
        | some c =>
          dsimp only
          split
          · next hm =>
            constructor
            · exact Or.inl
            · rintro (h | ⟨d, hd, rfl⟩)
              · exact h
              · cases hd; exact hm
          · rw [List.mem_append, List.mem_singleton]
            constructor
            · rintro (h | h)
              · exact Or.inl h
              · exact Or.inr ⟨c, rfl, h.symm⟩
            · rintro (h | ⟨d, hd, rfl⟩)
              · exact Or.inl h
              · cases hd; exact Or.inr rfl
      rw [hstep]
      constructor
      · rintro ((h | h) | ⟨i, hi, h⟩)
        · exact Or.inl h
        · exact Or.inr ⟨a, List.mem_cons_self, h⟩
        · exact Or.inr ⟨i, List.mem_cons_of_mem _ hi, h⟩
      · rintro (h | ⟨i, hi, h⟩)
        · exact Or.inl (Or.inl h)
        · rcases List.mem_cons.1 hi with rfl | hi
          · exact Or.inl (Or.inr h)
          · exact Or.inr ⟨i, hi, h⟩
  unfold cPts
  rw [key]
  simp

theorem cHrs_mem {params : List CInfo} {hs : List Rat} (h : cHrs params = .ok hs) (q : Rat) : q ∈ hs ↔ ∃ i ∈ params, ∃ c, cFirst i "hour".toList = some c ∧ c.value = .dbl q := by
  have key : ∀ (l : List CInfo) (acc out : List Rat), l.foldlM cHrStep acc = .ok out → (q ∈ out ↔ q ∈ acc ∨ ∃ i ∈ l, ∃ c, cFirst i "hour".toList = some c ∧ c.value = .dbl q) := by
    intro l
    induction l with
    | nil => intro acc out h; cases h; simp
    | cons a l ih =>
      intro acc out h
      rw [foldE_cons] at h
      obtain ⟨acc', h1, h2⟩ := (bindE_iff _ _ _).1 h
      rw [ih acc' out h2]
      have hstep : q ∈ acc' ↔ q ∈ acc ∨ ∃ c, cFirst a "hour".toList = some c ∧ c.value = .dbl q := by
        unfold cHrStep at h1
        change (match cFirst a "hour".toList with | some c => (c.value.getDbl >>= fun h => .ok (if h ∈ acc then acc else acc ++ [h])) | none => .ok acc) = Except.ok acc' at h1
        cases hf : cFirst a "hour".toList with
        | none => rw [hf] at h1; cases h1; simp
        | some c =>
          rw [hf] at h1
          obtain ⟨r, h3, h4⟩ := (bindE_iff _ _ _).1 h1
          have e := Except.ok.inj h4
          have hr : c.value = .dbl r := by
            revert h3
            cases c.value <;> intro h3 <;> cases h3
            rfl
          have hiff : (∃ d, some c = some d ∧ d.value = .dbl q) ↔ q = r := by
            constructor
            · rintro ⟨d, hd, h5⟩
              cases hd
              rw [hr] at h5
              cases h5
              rfl
            · rintro rfl
              exact ⟨c, rfl, hr⟩
          rw [hiff, ← e]
          split
          · next hm =>
            constructor
            · exact Or.inl
            · rintro (h | rfl)
              · exact h
              · exact hm
          · rw [List.mem_append, List.mem_singleton]
      rw [hstep]
      constructor
      · rintro ((h | h) | ⟨i, hi, h⟩)
        · exact Or.inl h
        · exact Or.inr ⟨a, List.mem_cons_self, h⟩
        · exact Or.inr ⟨i, List.mem_cons_of_mem _ hi, h⟩
      · rintro (g | ⟨i, hi, g⟩)
        · exact Or.inl (Or.inl g)
        · rcases List.mem_cons.1 hi with rfl | hi
          · exact Or.inl (Or.inr g)
          · exact Or.inr ⟨i, hi, g⟩
  have := key params [] hs h
  simpa using this

theorem cPeriods_first {vs : List CVertex} {ps : List (List CVal)} (h : cPeriods vs = .ok ps) : ∃ params, CFirstWith "pt".toList vs params ∧ ps = cPts params := by
  induction vs with
  | nil => cases h
  | cons v vs ih =>
    rw [cPeriods] at h
    split at h
    · next hn =>
      obtain ⟨params, ⟨pre, u, post, rfl, h2, h3, h4⟩, h5⟩ := ih h
      refine ⟨params, ⟨v :: pre, u, post, rfl, h2, h3, ?_⟩, h5⟩
      intro w hw i hi
      rcases List.mem_cons.1 hw with rfl | hw
      · cases hf : cFirst i "pt".toList with
        | none => rfl
        | some c =>
          have : c.values ∈ cPts w.params := (cPts_mem _ _).2 ⟨i, hi, c, hf, rfl⟩
          rw [hn] at this
          cases this
      · exact h4 w hw i hi
    · next hne =>
      have e := Except.ok.inj h
      refine ⟨v.params, ⟨[], v, vs, rfl, rfl, ?_, by simp⟩, e.symm⟩
      obtain ⟨pt, hpt⟩ := List.exists_mem_of_ne_nil _ hne
      obtain ⟨i, hi, c, hc, _⟩ := (cPts_mem _ _).1 hpt
      exact ⟨i, hi, by rw [hc]; rfl⟩

theorem cHours_first {vs : List CVertex} {hs : List Rat} (h : cHours vs = .ok hs) : ∃ params, CFirstWith "hour".toList vs params ∧ cHrs params = .ok hs := by
  induction vs with
  | nil => cases h
  | cons v vs ih =>
    rw [cHours] at h
    obtain ⟨q, h1, h⟩ := (bindE_iff _ _ _).1 h
    split at h
    · next hn =>
      subst hn
      obtain ⟨params, ⟨pre, u, post, rfl, h2, h3, h4⟩, h5⟩ := ih h
      refine ⟨params, ⟨v :: pre, u, post, rfl, h2, h3, ?_⟩, h5⟩
      intro w hw i hi
      rcases List.mem_cons.1 hw with rfl | hw
      · have hall : ∀ (l : List CInfo) (acc : List Rat), l.foldlM cHrStep acc = .ok [] → ∀ i ∈ l, cFirst i "hour".toList = none := by
          intro l
          induction l with
          | nil => intro acc _ i hi; cases hi
          | cons a l ihl =>
            intro acc hl i hi
            rw [foldE_cons] at hl
            obtain ⟨acc', g1, g2⟩ := (bindE_iff _ _ _).1 hl
            rcases List.mem_cons.1 hi with rfl | hi
            · have mono : ∀ (l : List CInfo) (acc out : List Rat), l.foldlM cHrStep acc = .ok out → ∀ x ∈ acc, x ∈ out := by
                intro l
                induction l with
                | nil => intro acc out h; cases h; exact fun x h => h
                | cons b l ihm =>
                  intro acc out h x hx
                  rw [foldE_cons] at h
                  obtain ⟨a2, k1, k2⟩ := (bindE_iff _ _ _).1 h
                  refine ihm a2 out k2 x ?_
                  unfold cHrStep at k1
                  split at k1
                  · obtain ⟨r, _, k3⟩ := (bindE_iff _ _ _).1 k1
                    have e := Except.ok.inj k3
                    subst e
                    split
                    · exact hx
                    · exact List.mem_append_left _ hx
                  · cases k1; exact hx
              unfold cHrStep at g1
              change (match cFirst i "hour".toList with | some c => (c.value.getDbl >>= fun h => .ok (if h ∈ acc then acc else acc ++ [h])) | none => .ok acc) = Except.ok acc' at g1
              cases hf : cFirst i "hour".toList with
              | none => rfl
              | some c =>
                rw [hf] at g1
                obtain ⟨r, _, k3⟩ := (bindE_iff _ _ _).1 g1
                have e := Except.ok.inj k3
                have : r ∈ acc' := by
                  rw [← e]
                  split
                  · next hm => exact hm
                  · exact List.mem_append_right _ (List.mem_singleton.2 rfl)
                have := mono l acc' [] g2 r this
                cases this
            · exact ihl acc' g2 i hi
        exact hall w.params [] h1 i hi
      · exact h4 w hw i hi
    · next hne =>
      have e := Except.ok.inj h
      subst e
      refine ⟨v.params, ⟨[], v, vs, rfl, rfl, ?_, by simp⟩, h1⟩
      obtain ⟨r, hr⟩ := List.exists_mem_of_ne_nil _ hne
      obtain ⟨i, hi, c, hc, _⟩ := (cHrs_mem h1 r).1 hr
      exact ⟨i, hi, by rw [hc]; rfl⟩

/-- **C203** the periods are different, and there is at least one: they are all combinations of the representative periods among the parameters of the first element that has any and of the hours among the parameters of the first element that has any -/
theorem C203_periods_partial (pr mu : Bool) (vs : List CVertex) (subs : List CWhen) (h : cSubs pr mu vs = .ok subs) : subs.Nodup ∧ subs ≠ [] ∧ ∃ P H : List CInfo,
    (pr = true → CFirstWith "pt".toList vs P) ∧ (mu = true → CFirstWith "hour".toList vs H) ∧
    ∀ s, s ∈ subs ↔ (if pr = true then ∃ i ∈ P, ∃ c, cFirst i "pt".toList = some c ∧ c.values = s.1 else s.1 = []) ∧
      (if mu = true then ∃ i ∈ H, ∃ c, cFirst i "hour".toList = some c ∧ c.value = .dbl s.2 else s.2 = -1) := by
  unfold cSubs at h
  obtain ⟨ps, h1, h⟩ := (bindE_iff _ _ _).1 h
  obtain ⟨hs, h2, h⟩ := (bindE_iff _ _ _).1 h
  have e := Except.ok.inj h
  subst e
  have hp : ps.Nodup ∧ ps ≠ [] ∧ ∃ P : List CInfo, (pr = true → CFirstWith "pt".toList vs P) ∧ ∀ pt, pt ∈ ps ↔ if pr = true then ∃ i ∈ P, ∃ c, cFirst i "pt".toList = some c ∧ c.values = pt else pt = [] := by
    unfold cPs at h1
    split at h1
    · next hpr =>
      obtain ⟨P, hP, rfl⟩ := cPeriods_first h1
      refine ⟨(cPeriods_nodup h1).1, (cPeriods_nodup h1).2, P, fun _ => hP, fun pt => ?_⟩
      rw [if_pos hpr, cPts_mem]
    · next hpr =>
      cases h1
      exact ⟨by simp, by simp, [], fun hc => absurd hc hpr, fun pt => by rw [if_neg hpr]; simp⟩
  have hh : hs.Nodup ∧ hs ≠ [] ∧ ∃ H : List CInfo, (mu = true → CFirstWith "hour".toList vs H) ∧ ∀ q, q ∈ hs ↔ if mu = true then ∃ i ∈ H, ∃ c, cFirst i "hour".toList = some c ∧ c.value = .dbl q else q = -1 := by
    unfold cHs at h2
    split at h2
    · next hmu =>
      obtain ⟨H, hH, hH2⟩ := cHours_first h2
      refine ⟨(cHours_nodup h2).1, (cHours_nodup h2).2, H, fun _ => hH, fun q => ?_⟩
      rw [if_pos hmu, cHrs_mem hH2]
    · next hmu =>
      cases h2
      exact ⟨by simp, by simp, [], fun hc => absurd hc hmu, fun pt => by rw [if_neg hmu]; simp⟩
  obtain ⟨p1, p2, P, p3, p4⟩ := hp
  obtain ⟨q1, q2, H, q3, q4⟩ := hh
  refine ⟨?_, ?_, P, H, p3, q3, ?_⟩
  · have := nodup_flatMap' id (fun p => hs.map (fun h => (p, h))) ps p1 ?_ ?_
    · simpa using this
    · intro p _
      rw [List.map_id]
      exact q1.map (fun a b hab => by simpa using hab)
    · intro a _ b _ hab u hu v hv huv
      obtain ⟨x, _, rfl⟩ := List.mem_map.1 hu
      obtain ⟨y, _, rfl⟩ := List.mem_map.1 hv
      exact hab (congrArg Prod.fst huv)
  · intro hc
    rw [List.flatMap_eq_nil_iff] at hc
    obtain ⟨p, hpm⟩ := List.exists_mem_of_ne_nil _ p2
    have := hc p hpm
    rw [List.map_eq_nil_iff] at this
    exact q2 this
  · intro s
    rw [← p4, ← q4, List.mem_flatMap]
    constructor
    · rintro ⟨a, ha, hs⟩
      obtain ⟨b, hb, rfl⟩ := List.mem_map.1 hs
      exact ⟨ha, hb⟩
    · rintro ⟨ha, hb⟩
      exact ⟨s.1, ha, List.mem_map.2 ⟨s.2, hb, rfl⟩⟩

theorem cSubs_chars {pr mu : Bool} {vs ws : List CVertex} (h : List.Forall₂ (fun v w : CVertex => w.params.map (·.chars) = v.params.map (·.chars)) vs ws) : cSubs pr mu ws = cSubs pr mu vs := by
  have e1 : ∀ (l m : List CInfo), m.map (·.chars) = l.map (·.chars) → ∀ acc, m.foldl cPtStep acc = l.foldl cPtStep acc := by
    intro l
    induction l with
    | nil => intro m h acc; cases m with | nil => rfl | cons a m => cases h
    | cons a l ih =>
      intro m h acc
      cases m with
      | nil => cases h
      | cons b m =>
        have h' : b.chars = a.chars ∧ m.map (·.chars) = l.map (·.chars) := List.cons.inj h
        rw [List.foldl_cons, List.foldl_cons, ih m h'.2]
        congr 1
        unfold cPtStep
        rw [h'.1]
  have e2 : ∀ (l m : List CInfo), m.map (·.chars) = l.map (·.chars) → ∀ acc, m.foldlM cHrStep acc = l.foldlM cHrStep acc := by
    intro l
    induction l with
    | nil => intro m h acc; cases m with | nil => rfl | cons a m => cases h
    | cons a l ih =>
      intro m h acc
      cases m with
      | nil => cases h
      | cons b m =>
        have h' : b.chars = a.chars ∧ m.map (·.chars) = l.map (·.chars) := List.cons.inj h
        rw [foldE_cons, foldE_cons]
        have : cHrStep acc b = cHrStep acc a := by
          unfold cHrStep
          rw [h'.1]
        rw [this]
        congr 1
        funext acc'
        exact ih m h'.2 acc'
  have hp : cPeriods ws = cPeriods vs := by
    induction h with
    | nil => rfl
    | cons a _ ih =>
      rw [cPeriods, cPeriods, ih]
      unfold cPts
      rw [e1 _ _ a]
  have hh : cHours ws = cHours vs := by
    clear hp
    induction h with
    | nil => rfl
    | cons a _ ih =>
      rw [cHours, cHours, ih]
      unfold cHrs
      rw [e2 _ _ a]
  unfold cSubs cPs cHs
  rw [hp, hh]

theorem cUpdate_chars (l : List CInfo) (p : CInfo) : (cUpdate l p).map (·.chars) = l.map (·.chars) := by
  induction l with
  | nil => rfl
  | cons a l ih =>
    rw [cUpdate]
    split
    · rfl
    · rw [List.map_cons, List.map_cons, ih]

theorem cScaleAll_chars (base : Rat) : ∀ (fs l m : List CInfo), cScaleAll base l fs = .ok m → m.map (·.chars) = l.map (·.chars) := by
  intro fs
  induction fs with
  | nil => intro l m h; rw [cScaleAll] at h; cases h; rfl
  | cons f fs ih =>
    intro l m h
    rw [cScaleAll] at h
    split at h
    · exact (ih _ _ h).trans (cUpdate_chars _ _)
    · cases h

theorem cPerUnit_chars {base : Rat} {vs ws : List CVertex} (h : cPerUnit base vs = .ok ws) : List.Forall₂ (fun v w : CVertex => w.params.map (·.chars) = v.params.map (·.chars)) vs ws := by
  unfold cPerUnit at h
  rw [mapE_iff] at h
  refine h.imp ?_
  intro v w hw
  unfold cScaleVertex at hw
  obtain ⟨p, h1, h2⟩ := (bindE_iff _ _ _).1 hw
  cases h2
  have key : ∀ (names : List Tok) (l m : List CInfo), names.foldlM (cScale base) l = .ok m → m.map (·.chars) = l.map (·.chars) := by
    intro names
    induction names with
    | nil => intro l m h; cases h; rfl
    | cons a names ih =>
      intro l m h
      rw [foldE_cons] at h
      obtain ⟨k, h3, h4⟩ := (bindE_iff _ _ _).1 h
      exact (ih _ _ h4).trans (cScaleAll_chars base _ _ _ h3)
  exact key _ _ _ h1

/-! ## the whole model -/

/-- an element as it was given and as it is in the model: powers are per unit, costs have their lines, everything else is the same -/
structure CBuilt (base : Rat) (s0 : CWhen) (v w : CVertex) : Prop where
  chars : w.chars = v.chars
  power : ∀ n s, CPower (cType v) n → cVal w n s = cVal v n s / base
  other : ∀ n extra, ¬ CPower (cType v) n → n ≠ "cost function".toList → cParam w n extra = cParam v n extra
  cost : cIsGen v = true → (cFetch v "cost function".toList [] = .none → cFetch w "cost function".toList [] = .none) ∧
    ∀ i, cFetch v "cost function".toList [] = .one i → ∃ L, cLinearise i base (cVal v "active power max limit".toList s0 / base) (cVal v "Pmin".toList s0 / base) = .ok L ∧ cFetch w "cost function".toList [] = .one (cWithLines i L)

theorem forall₂_comp {α β γ : Type} {R : α → β → Prop} {S : β → γ → Prop} {T : α → γ → Prop} (h : ∀ a b c, R a b → S b c → T a c) {l : List α} {m : List β} {n : List γ} (h1 : List.Forall₂ R l m) (h2 : List.Forall₂ S m n) : List.Forall₂ T l n := by
  induction h1 generalizing n with
  | nil => cases h2; exact .nil
  | cons a b ih => cases h2 with | cons c d => exact .cons (h _ _ _ a c) (ih d)

theorem forall₂_back {α β : Type} {R : α → β → Prop} {l : List α} {m : List β} (h : List.Forall₂ R l m) : ∀ (k : Nat) (b : β), m[k]? = some b → ∃ a, l[k]? = some a ∧ R a b := by
  induction h with
  | nil => intro k b hb; simp at hb
  | cons h1 _ ih =>
    intro k b hb
    cases k with
    | zero =>
      simp only [List.getElem?_cons_zero, Option.some.injEq] at hb
      subst hb
      exact ⟨_, rfl, h1⟩
    | succ k =>
      simp only [List.getElem?_cons_succ] at hb ⊢
      exact ih k b hb

theorem cNotPower {type : CVal} : ¬ CPower type "cost function".toList := by
  unfold CPower
  rintro (⟨_, h⟩ | ⟨_, h | h | h | h | h | h⟩ | ⟨_, h⟩) <;> exact absurd h (by decide +kernel)

theorem cPowerName {type : CVal} {n : Tok} (h : CPower type n) : n ≠ "cost function".toList := by
  rintro rfl
  exact cNotPower h

theorem okD_map (e : Except CErr Rat) (base : Rat) : okD (e.map (fun q => q / base)) 0 = okD e 0 / base := by
  cases e with
  | error _ => simp [okD, Except.map]
  | ok a => rfl

theorem cOf_numbers (f : CVertex → Bool) (vs : List CVertex) : (cOf f vs).map (fun q => cNo q.1) = (vs.filter f).map cNo := by
  have h : (vs.zipIdx.filter (fun q => f q.1)).map Prod.fst = (vs.zipIdx.map Prod.fst).filter f := (List.filter_map (f := Prod.fst) (l := vs.zipIdx) (p := f)).symm
  rw [List.zipIdx_map_fst] at h
  rw [← h, List.map_map]
  rfl

theorem forall₂_forth {α β : Type} {R : α → β → Prop} {l : List α} {m : List β} (h : List.Forall₂ R l m) : ∀ (k : Nat) (a : α), l[k]? = some a → ∃ b, m[k]? = some b ∧ R a b := by
  induction h with
  | nil => intro k b hb; simp at hb
  | cons h1 _ ih =>
    intro k b hb
    cases k with
    | zero =>
      simp only [List.getElem?_cons_zero, Option.some.injEq] at hb
      subst hb
      exact ⟨_, rfl, h1⟩
    | succ k =>
      simp only [List.getElem?_cons_succ] at hb ⊢
      exact ih k b hb

theorem cNetOk_chars {vs ws : List CVertex} (h : List.Forall₂ (fun v w : CVertex => w.chars = v.chars) vs ws) (hnet : CNetOk vs) : CNetOk ws := by
  have hn : (ws.filter cIsBus).map cNo = (vs.filter cIsBus).map cNo := by
    clear hnet
    induction h with
    | nil => rfl
    | @cons v w l m a _ ih =>
      have e1 : cIsBus w = cIsBus v := by unfold cIsBus; rw [a]
      have e2 : cNo w = cNo v := by unfold cNo; rw [a]
      rw [List.filter_cons, List.filter_cons, e1]
      split
      · rw [List.map_cons, List.map_cons, ih, e2]
      · exact ih
  constructor
  · rw [cOf_numbers, hn, ← cOf_numbers]
    exact hnet.numbers
  · intro l hl
    obtain ⟨h1, h2⟩ := cOf_mem.1 hl
    obtain ⟨v, hv, e⟩ := forall₂_back h l.2 l.1 h1
    have hvb : (v, l.2) ∈ cOf cIsBranch vs := cOf_mem.2 ⟨hv, by unfold cIsBranch at h2 ⊢; rw [← e]; exact h2⟩
    have ef : cFrom l.1 = cFrom v := by unfold cFrom; rw [e]
    have et : cTo l.1 = cTo v := by unfold cTo; rw [e]
    obtain ⟨h3, h4, h5⟩ := hnet.ends _ hvb
    have tr : ∀ k, (∃ q ∈ cOf cIsBus vs, cNo q.1 = k) → ∃ q ∈ cOf cIsBus ws, cNo q.1 = k := by
      rintro k ⟨q, hq, rfl⟩
      obtain ⟨h6, h7⟩ := cOf_mem.1 hq
      obtain ⟨w, hw, e'⟩ := forall₂_forth h q.2 q.1 h6
      refine ⟨(w, q.2), cOf_mem.2 ⟨hw, ?_⟩, ?_⟩
      · unfold cIsBus at h7 ⊢; rw [e']; exact h7
      · unfold cNo; rw [e']
    rw [ef, et]
    exact ⟨h3, tr _ h4, tr _ h5⟩

/-- **C203** what the engine builds: for each period, of as many as it finds, a program whose solutions are those of the DC optimal power flow of the period and whose objective is its cost, for the elements as they were given with powers per unit -/
theorem C203_model_partial (base : Rat) (pr mu : Bool) (vs ws : List CVertex) (p : CProb) (h : cModel base pr mu vs = .ok (ws, p)) (hv : ∀ v ∈ vs, CGiven v) (hnet : CNetOk vs) (hc : ∀ v ∈ vs, CCostGiven v) :
    ∃ s0 subs, cSubs pr mu vs = .ok (s0 :: subs) ∧ List.Forall₂ (CBuilt base s0) vs ws ∧ CNetOk ws ∧
      ∀ s ∈ s0 :: subs, ∀ x, (cFeasible p (cSub s) x ↔ CDcOpf ws s x) ∧ cObjective p (cSub s) x = cTotal ws s x := by
  unfold cModel at h
  obtain ⟨us, h1, h⟩ := (bindE_iff _ _ _).1 h
  obtain ⟨subs, h2, h⟩ := (bindE_iff _ _ _).1 h
  obtain ⟨ws', h3, h⟩ := (bindE_iff _ _ _).1 h
  obtain ⟨p', h4, h⟩ := (bindE_iff _ _ _).1 h
  have e := Except.ok.inj h
  cases e
  obtain ⟨hnd, hne, -⟩ := C203_periods_partial pr mu us subs h2
  rw [cSubs_chars (cPerUnit_chars h1)] at h2
  obtain ⟨s0, rest, rfl⟩ := List.exists_cons_of_ne_nil hne
  obtain ⟨us', g1, g2⟩ := C200_perunit base vs hv
  rw [h1] at g1
  cases g1
  have hcu : ∀ u ∈ us, CCostGiven u := by
    intro u hu
    obtain ⟨k, hk⟩ := List.getElem?_of_mem hu
    obtain ⟨v, hvk, hr⟩ := forall₂_back g2 k u hk
    have hvm := List.mem_of_getElem? hvk
    intro hg
    have hg' : cIsGen v = true := by
      unfold cIsGen at hg ⊢
      rw [hr.1] at hg
      exact hg
    rw [((hr.2.2 "cost function".toList []).2 cNotPower).2]
    exact hc v hvm hg'
  have hlined := C203_lines_partial base s0 rest us ws hcu h3
  have hbuilt : List.Forall₂ (CBuilt base s0) vs ws := by
    refine forall₂_comp ?_ g2 hlined
    intro v u w hr hl
    have hpow : ∀ n s, CPower (cType v) n → cVal u n s = cVal v n s / base := by
      intro n s hp
      unfold cVal
      rw [(hr.2.2 n (cExtra s)).1 hp, okD_map]
    refine ⟨hl.chars.trans hr.1, ?_, ?_, ?_⟩
    · intro n s hp
      rw [← hpow n s hp]
      unfold cVal cDouble
      rw [cParam_congr (fun extra => hl.same n extra (cPowerName hp))]
    · intro n extra hp hn
      rw [cParam_congr (fun extra => hl.same n extra hn), ((hr.2.2 n extra).2 hp).1]
    · intro hg
      have hg' : cIsGen u = true := by
        unfold cIsGen at hg ⊢
        rw [hr.1]
        exact hg
      have hcf : cFetch u "cost function".toList [] = cFetch v "cost function".toList [] := ((hr.2.2 "cost function".toList []).2 cNotPower).2
      have hty : cType v = .str "generator".toList := by
        exact of_decide_eq_true hg
      have hmax : CPower (cType v) "active power max limit".toList := Or.inr (Or.inl ⟨hty, Or.inl rfl⟩)
      have hmin : CPower (cType v) "Pmin".toList := Or.inr (Or.inl ⟨hty, Or.inr (Or.inl rfl)⟩)
      obtain ⟨c1, c2⟩ := hl.cost hg'
      rw [hcf] at c1 c2
      refine ⟨c1, ?_⟩
      intro i hi
      have := c2 i hi
      rwa [hpow _ s0 hmax, hpow _ s0 hmin] at this
  have hch : List.Forall₂ (fun v w : CVertex => w.chars = v.chars) vs ws := hbuilt.imp (fun _ _ h => h.chars)
  have hnet' := cNetOk_chars hch hnet
  refine ⟨s0, rest, h2, hbuilt, hnet', ?_⟩
  intro s hs x
  refine ⟨C202_feasible_partial _ _ _ h4 hnet' hnd ?_ s hs x, C202_objective_partial _ _ _ h4 hnd s hs x⟩
  intro q hq hmany
  obtain ⟨hq1, hq2⟩ := cOf_mem.1 hq
  obtain ⟨v, hvk, hr⟩ := forall₂_back hbuilt q.2 q.1 hq1
  have hg : cIsGen v = true := by
    unfold cIsGen at hq2 ⊢
    rw [hr.chars] at hq2
    exact hq2
  rcases hc v (List.mem_of_getElem? hvk) hg with hn | ⟨i, _, _, _, hi, _⟩
  · rw [(hr.cost hg).1 hn] at hmany
    cases hmany
  · obtain ⟨L, _, hL⟩ := (hr.cost hg).2 i hi
    rw [hL] at hmany
    cases hmany

/-- **C203** in megawatts: in every solution of the model the output of the generators in service at a bus, what flows in, and what is not served and not used, make the given demand; outputs are within the given limits; branches in service with a limit carry at most it. -/
theorem C203_megawatts_partial (base : Rat) (hb : 0 < base) (pr mu : Bool) (vs ws : List CVertex) (p : CProb) (h : cModel base pr mu vs = .ok (ws, p)) (hv : ∀ v ∈ vs, CGiven v) (hnet : CNetOk vs) (hc : ∀ v ∈ vs, CCostGiven v) :
    ∃ subs, cSubs pr mu vs = .ok subs ∧ ∀ s ∈ subs, ∀ x, cFeasible p (cSub s) x → ∀ (k : Nat) (v w : CVertex), vs[k]? = some v → ws[k]? = some w →
      (cIsBus v = true → base * cOutput ws s x w + base * cInflow ws s x w + base * x ⟨k, "load curtailment".toList, cExtra s⟩ - base * x ⟨k, "generation curtailment".toList, cExtra s⟩ = cVal v "Pd".toList s) ∧
      (cIsGen v = true → cOn v s = true → cVal v "Pmin".toList s ≤ base * x ⟨k, "active power generation".toList, cExtra s⟩ ∧ base * x ⟨k, "active power generation".toList, cExtra s⟩ ≤ cVal v "active power max limit".toList s) ∧
      (cIsBranch v = true → cOn v s = true → cVal v "maxPflow".toList s ≠ 0 → 1 / 100000000 < cVal v "reactance".toList s → |base * cFlow ws s x w| ≤ cVal v "maxPflow".toList s) := by
  obtain ⟨s0, subs, hsubs, hbuilt, _, hall⟩ := C203_model_partial base pr mu vs ws p h hv hnet hc
  refine ⟨s0 :: subs, hsubs, ?_⟩
  intro s hs x hx k v w hvk hwk
  have d := ((hall s hs x).1).1 hx
  obtain ⟨v', hv', hr⟩ := forall₂_back hbuilt k w hwk
  rw [hvk] at hv'
  cases hv'
  have hon : cOn w s = cOn v s := by
    unfold cOn cBool
    rw [hr.other]
    · unfold CPower
      rintro (⟨_, h⟩ | ⟨_, h | h | h | h | h | h⟩ | ⟨_, h⟩) <;> exact absurd h (by decide +kernel)
    · decide +kernel
  have hxw : cVal w "reactance".toList s = cVal v "reactance".toList s := by
    unfold cVal cDouble
    rw [hr.other]
    · unfold CPower
      rintro (⟨_, h⟩ | ⟨_, h | h | h | h | h | h⟩ | ⟨_, h⟩) <;> exact absurd h (by decide +kernel)
    · decide +kernel
  refine ⟨?_, ?_, ?_⟩
  · intro hg
    have hg' : cIsBus w = true := by unfold cIsBus at hg ⊢; rw [hr.chars]; exact hg
    have h1 := d.balance (w, k) (cOf_mem.2 ⟨hwk, hg'⟩)
    have hp : CPower (cType v) "Pd".toList := Or.inl ⟨of_decide_eq_true hg, rfl⟩
    rw [hr.power _ s hp] at h1
    dsimp only at h1
    rw [eq_div_iff (ne_of_gt hb)] at h1
    rw [← h1]
    ring
  · intro hg hs1
    have hg' : cIsGen w = true := by unfold cIsGen at hg ⊢; rw [hr.chars]; exact hg
    have h1 := d.output (w, k) (cOf_mem.2 ⟨hwk, hg'⟩) (hon.trans hs1)
    have hp1 : CPower (cType v) "Pmin".toList := Or.inr (Or.inl ⟨of_decide_eq_true hg, Or.inr (Or.inl rfl)⟩)
    have hp2 : CPower (cType v) "active power max limit".toList := Or.inr (Or.inl ⟨of_decide_eq_true hg, Or.inl rfl⟩)
    rw [hr.power _ s hp1, hr.power _ s hp2] at h1
    dsimp only at h1
    rw [div_le_iff₀ hb, le_div_iff₀ hb] at h1
    exact ⟨by linarith [h1.1], by linarith [h1.2]⟩
  · intro hg hs1 hm hre
    have hg' : cIsBranch w = true := by unfold cIsBranch at hg ⊢; rw [hr.chars]; exact hg
    have hp1 : CPower (cType v) "maxPflow".toList := Or.inr (Or.inr ⟨of_decide_eq_true hg, rfl⟩)
    have h1 := C202_limit_partial ws s x d (w, k) (cOf_mem.2 ⟨hwk, hg'⟩) (hon.trans hs1) (by
      dsimp only
      rw [hr.power _ s hp1]
      exact div_ne_zero hm (ne_of_gt hb)) (by dsimp only; rw [hxw]; exact hre)
    dsimp only at h1
    rw [hr.power _ s hp1, le_div_iff₀ hb] at h1
    rw [abs_mul, abs_of_pos hb]
    linarith

/-- **C203** violated: the linear cost of a generator is multiplied by its output per unit, so that the objective has 1/base of the cost of the output in megawatts; cost functions count in full -/
theorem C203_linear_violated (base : Rat) (hb : 0 < base) (pr mu : Bool) (vs ws : List CVertex) (p : CProb) (h : cModel base pr mu vs = .ok (ws, p)) (hv : ∀ v ∈ vs, CGiven v) (hnet : CNetOk vs) (hc : ∀ v ∈ vs, CCostGiven v)
    (hno : ∀ v ∈ vs, cIsGen v = true → cFetch v "cost function".toList [] = .none) :
    ∃ subs, cSubs pr mu vs = .ok subs ∧ ∀ s ∈ subs, ∀ x, (∀ q ∈ cOf cIsBus ws, x ⟨q.2, "load curtailment".toList, cExtra s⟩ = 0 ∧ x ⟨q.2, "generation curtailment".toList, cExtra s⟩ = 0) →
      cObjective p (cSub s) x = ((cOf cIsGen vs).map (fun q => if cOn q.1 s = true then cVal q.1 "vCPg".toList s * (base * x ⟨q.2, "active power generation".toList, cExtra s⟩) else 0)).sum / base := by
  obtain ⟨s0, subs, hsubs, hbuilt, _, hall⟩ := C203_model_partial base pr mu vs ws p h hv hnet hc
  refine ⟨s0 :: subs, hsubs, ?_⟩
  intro s hs x hx
  rw [(hall s hs x).2]
  unfold cTotal
  rw [sum_zero' _ _ (fun q hq => by rw [(hx q hq).1, (hx q hq).2, add_zero, mul_zero]), zero_add]
  have lin : ∀ V X S : Rat, V * X + 0 + S / base = (V * (base * X) + S) / base := by
    intro V X S
    have hb' := ne_of_gt hb
    field_simp
    ring
  have hnp : ∀ (t : CVal) (n : Tok), n = "status".toList ∨ n = "vCPg".toList → ¬ CPower t n ∧ n ≠ "cost function".toList := by
    intro t n hn
    rcases hn with rfl | rfl
    · refine ⟨?_, by decide +kernel⟩
      unfold CPower
      rintro (⟨_, h⟩ | ⟨_, h | h | h | h | h | h⟩ | ⟨_, h⟩) <;> exact absurd h (by decide +kernel)
    · refine ⟨?_, by decide +kernel⟩
      unfold CPower
      rintro (⟨_, h⟩ | ⟨_, h | h | h | h | h | h⟩ | ⟨_, h⟩) <;> exact absurd h (by decide +kernel)
  have key : ∀ (l m : List CVertex) (k : Nat), List.Forall₂ (CBuilt base s0) l m → (∀ v ∈ l, cIsGen v = true → cFetch v "cost function".toList [] = .none) →
      (((m.zipIdx k).filter (fun q => cIsGen q.1)).map (fun q => if cOn q.1 s = true then cVal q.1 "vCPg".toList s * x ⟨q.2, "active power generation".toList, cExtra s⟩ +
        (if cFetch q.1 "cost function".toList [] = .none then 0 else x ⟨q.2, "active power generation cost".toList, cExtra s⟩) else 0)).sum =
      (((l.zipIdx k).filter (fun q => cIsGen q.1)).map (fun q => if cOn q.1 s = true then cVal q.1 "vCPg".toList s * (base * x ⟨q.2, "active power generation".toList, cExtra s⟩) else 0)).sum / base := by
    intro l m k hlm
    induction hlm generalizing k with
    | nil => intro _; exact (zero_div base).symm
    | @cons v w l m a _ ih =>
      intro hcf
      have e1 : cIsGen w = cIsGen v := by unfold cIsGen; rw [a.chars]
      rw [List.zipIdx_cons, List.zipIdx_cons, List.filter_cons, List.filter_cons]
      dsimp only
      rw [e1]
      have ih' := ih (k + 1) (fun v hv => hcf v (List.mem_cons_of_mem _ hv))
      by_cases hg : cIsGen v = true
      · rw [if_pos hg, if_pos hg, List.map_cons, List.map_cons, List.sum_cons, List.sum_cons, ih']
        dsimp only
        have e2 : cOn w s = cOn v s := by
          unfold cOn cBool
          rw [a.other _ _ (hnp _ _ (Or.inl rfl)).1 (hnp (cType v) _ (Or.inl rfl)).2]
        have e3 : cVal w "vCPg".toList s = cVal v "vCPg".toList s := by
          unfold cVal cDouble
          rw [a.other _ _ (hnp _ _ (Or.inr rfl)).1 (hnp (cType v) _ (Or.inr rfl)).2]
        rw [e2, e3, (a.cost hg).1 (hcf v List.mem_cons_self hg), if_pos rfl]
        split
        · exact lin _ _ _
        · rw [zero_add, zero_add]
      · rw [if_neg hg, if_neg hg]
        exact ih'
  exact key vs ws 0 hbuilt hno

end Pyensys
