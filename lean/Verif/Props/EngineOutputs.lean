import Verif.Props.EngineOther

/-!
# Outputs of the compiled engine

C206: the outputs that are asked for are the values of the variables of the period that was evaluated last.
-/

namespace Pyensys

/-! ## Specification -/

/-- what is said of an output, as Python loads it: the problem, parameters or variables, the name, the type of the elements and the function -/
def cOutputOrder (kind name type fn : Tok) : List CChar :=
  [⟨"problem".toList, cNA, [.str "DC OPF".toList]⟩, ⟨"type information".toList, cNA, [.str kind]⟩, ⟨"name".toList, cNA, [.str name]⟩, ⟨"type".toList, cNA, [.str type]⟩, ⟨"function".toList, cNA, [.str fn]⟩]

/-- the elements of a type, with their places -/
def cTyped (type : Tok) (vs : List CVertex) : List (CVertex × Nat) := vs.zipIdx.filter (fun q => decide (cType q.1 = .str type))

/-! ## Lemmas -/

theorem okE_bind {α β : Type} (a : α) (f : α → Except CErr β) : ((Except.ok a : Except CErr α) >>= f) = f a := rfl

theorem cHas_perm_none {l m : List CChar} (hp : l.Perm m) {name : Tok} (hn : name ∉ m.map (·.name)) : cHas l name = false := by
  unfold cHas
  rw [List.any_eq_false]
  intro c hc h
  exact hn (List.mem_map.2 ⟨c, hp.subset hc, of_decide_eq_true h⟩)

/-- an output with the subscripts of the last evaluation -/
theorem cOutputNow_ok {e : CEngine} {s : CWhen} (hl : e.last = cSub s) (hh : s.2 ≠ -1) {output m : List CChar} (hp : output.Perm m) (h1 : "pt".toList ∉ m.map (·.name)) (h2 : "hour".toList ∉ m.map (·.name)) :
    cOutputNow e output = .ok (output ++ cSub s) := by
  have e1 : (cGetChar e.last "hour".toList).value = .dbl s.2 := by rw [hl]; rfl
  have e2 : cWith output (cSub s) = output ++ cSub s := by
    unfold cWith cSub
    show cSetChar (cSetChar output ⟨"pt".toList, cNA, s.1⟩ false) ⟨"hour".toList, .dbl s.2, []⟩ false = _
    rw [cSetChar_new false (cHas_perm_none hp h1), cSetChar_new false]
    · rw [List.append_assoc]; rfl
    · refine cHas_perm_none (List.Perm.append_right _ hp) ?_
      rw [List.map_append, List.mem_append]
      rintro (h | h)
      · exact h2 h
      · rw [List.map_singleton, List.mem_singleton] at h
        exact absurd h (show "hour".toList ≠ "pt".toList by decide)
  unfold cOutputNow
  rw [e1]
  show Except.ok (if s.2 ≠ -1 then cWith output e.last else output) = _
  rw [if_pos hh, hl, e2]

/-- what the engine reads in an output -/
structure CReads (o : List CChar) (s : CWhen) (kind name type fn : Tok) : Prop where
  problem : (cGetChar o "problem".toList).values = [.str "DC OPF".toList]
  kind : (cGetChar o "type information".toList).values = [.str kind]
  name : (cGetChar o "name".toList).values = [.str name]
  type : cHas o "type".toList = true ∧ (cGetChar o "type".toList).values = [.str type]
  fn : (cGetChar o "function".toList).values = [.str fn]
  hour : cHas o "hour".toList = true ∧ cGetChar o "hour".toList = ⟨"hour".toList, .dbl s.2, []⟩
  group : cHas o "group".toList = false
  zone : cHas o "zone".toList = false
  subtype : cHas o "subtype".toList = false

theorem cReads_of {output : List CChar} {kind name type fn : Tok} {extra : List CChar} (s : CWhen) (hp : output.Perm (cOutputOrder kind name type fn ++ extra))
    (hx : extra = [] ∨ ∃ ids, extra = [⟨"ID".toList, cNA, ids⟩]) : CReads (output ++ cSub s) s kind name type fn := by
  have hp' := List.Perm.append_right (cSub s) hp
  have hnames : ((cOutputOrder kind name type fn ++ extra ++ cSub s).map (·.name)) = ["problem".toList, "type information".toList, "name".toList, "type".toList, "function".toList] ++ extra.map (·.name) ++ ["pt".toList, "hour".toList] := by
    rw [List.map_append, List.map_append]
    rfl
  have hn : ((cOutputOrder kind name type fn ++ extra ++ cSub s).map (·.name)).Nodup := by
    rw [hnames]
    rcases hx with rfl | ⟨ids, rfl⟩
    · show ["problem".toList, "type information".toList, "name".toList, "type".toList, "function".toList, "pt".toList, "hour".toList].Nodup
      decide +kernel
    · show ["problem".toList, "type information".toList, "name".toList, "type".toList, "function".toList, "ID".toList, "pt".toList, "hour".toList].Nodup
      decide +kernel
  have get : ∀ c, c ∈ cOutputOrder kind name type fn ++ extra ++ cSub s → cGetChar (output ++ cSub s) c.name = c ∧ cHas (output ++ cSub s) c.name = true := fun c hc => cGetChar_perm hp' hn hc
  have inO : ∀ c, c ∈ cOutputOrder kind name type fn → cGetChar (output ++ cSub s) c.name = c ∧ cHas (output ++ cSub s) c.name = true := fun c hc => get c (List.mem_append_left _ (List.mem_append_left _ hc))
  have g1 := inO ⟨"problem".toList, cNA, [.str "DC OPF".toList]⟩ (by unfold cOutputOrder; simp)
  have g2 := inO ⟨"type information".toList, cNA, [.str kind]⟩ (by unfold cOutputOrder; simp)
  have g3 := inO ⟨"name".toList, cNA, [.str name]⟩ (by unfold cOutputOrder; simp)
  have g4 := inO ⟨"type".toList, cNA, [.str type]⟩ (by unfold cOutputOrder; simp)
  have g5 := inO ⟨"function".toList, cNA, [.str fn]⟩ (by unfold cOutputOrder; simp)
  have g6 := get ⟨"hour".toList, .dbl s.2, []⟩ (by unfold cSub; simp)
  dsimp only at g1 g2 g3 g4 g5 g6
  have no : ∀ n, n ∉ ["problem".toList, "type information".toList, "name".toList, "type".toList, "function".toList, "ID".toList, "pt".toList, "hour".toList] → cHas (output ++ cSub s) n = false := by
    intro n h
    refine cHas_perm_none hp' ?_
    rw [hnames]
    rw [List.mem_append, List.mem_append]
    rintro ((hm | hm) | hm)
    · exact h (List.mem_append_left ["ID".toList, "pt".toList, "hour".toList] hm)
    · rcases hx with rfl | ⟨ids, rfl⟩
      · cases hm
      · exact h (List.mem_append_right ["problem".toList, "type information".toList, "name".toList, "type".toList, "function".toList] (List.mem_append_left ["pt".toList, "hour".toList] hm))
    · exact h (List.mem_append_right ["problem".toList, "type information".toList, "name".toList, "type".toList, "function".toList, "ID".toList] hm)
  exact ⟨by rw [g1.1], by rw [g2.1], by rw [g3.1], ⟨g4.2, by rw [g4.1]⟩, by rw [g5.1], ⟨g6.2, g6.1⟩, no _ (by decide +kernel), no _ (by decide +kernel), no _ (by decide +kernel)⟩

theorem cRequireVal_set (name : Tok) (l : List CChar) (t : Tok) : cRequireVal name [l] (.str t) = .ok (if t = "all".toList then [l] else [cSetChar l ⟨name, .str t, []⟩ false]) := by
  unfold cRequireVal
  rw [getStr_bind]
  beta_reduce
  by_cases h : t = "all".toList
  · rw [if_pos h, if_pos h]
  · rw [if_neg h, if_neg h, if_neg (by simp)]
    rfl

/-- IDs: the last one that is not 'all' is kept -/
theorem cRequire_ids (h : CChar) (hname : h.name ≠ "ID".toList) : ∀ (ids : List CVal), (∀ v ∈ ids, ∃ t, v = .str t) → ∀ l : List CChar, (l = [h] ∨ ∃ v, l = [h, ⟨"ID".toList, v, []⟩]) →
    ∃ l', ids.foldlM (cRequireVal "ID".toList) [l] = .ok [l'] ∧ (l' = [h] ∨ ∃ v, l' = [h, ⟨"ID".toList, v, []⟩])
  | [], _, l, hl => ⟨l, rfl, hl⟩
  | v :: ids, hids, l, hl => by
    obtain ⟨t, rfl⟩ := hids v List.mem_cons_self
    rw [foldE_cons, cRequireVal_set]
    by_cases ht : t = "all".toList
    · rw [if_pos ht]
      exact cRequire_ids h hname ids (fun v hv => hids v (List.mem_cons_of_mem _ hv)) l hl
    · rw [if_neg ht]
      refine cRequire_ids h hname ids (fun v hv => hids v (List.mem_cons_of_mem _ hv)) _ (Or.inr ⟨.str t, ?_⟩)
      rcases hl with rfl | ⟨w, rfl⟩
      · unfold cSetChar
        rw [if_neg hname]
        rfl
      · unfold cSetChar
        rw [if_neg hname]
        rfl

/-- what is asked of the elements -/
theorem cRequired_ok {o : List CChar} {s : CWhen} {kind name type fn : Tok} (h : CReads o s kind name type fn) (ht : type ≠ "all".toList)
    (hid : cHas o "ID".toList = false ∨ ∀ v ∈ (cGetChar o "ID".toList).values, ∃ t, v = .str t) :
    ∃ r, cRequired true o = .ok [r] ∧ (cGetChar r "type".toList).value = .str type ∧ cGetChar r "name".toList = cNamed name ∧
      (cHas o "ID".toList = false → r = [⟨"hour".toList, .dbl s.2, []⟩, ⟨"type".toList, .str type, []⟩, ⟨"name".toList, .str name, []⟩]) := by
  have h1 : cRequire o [[⟨"hour".toList, .dbl s.2, []⟩]] "hour".toList = .ok [[⟨"hour".toList, .dbl s.2, []⟩]] := by
    unfold cRequire
    rw [h.hour.1, h.hour.2]
    rfl
  have h2 : ∃ l, cRequire o [[⟨"hour".toList, .dbl s.2, []⟩]] "ID".toList = .ok [l] ∧ (l = [⟨"hour".toList, .dbl s.2, []⟩] ∨ ∃ v, l = [⟨"hour".toList, .dbl s.2, []⟩, ⟨"ID".toList, v, []⟩]) ∧ (cHas o "ID".toList = false → l = [⟨"hour".toList, .dbl s.2, []⟩]) := by
    unfold cRequire
    by_cases hh : cHas o "ID".toList = true
    · rw [if_pos hh]
      rcases hid with hid | hid
      · rw [hid] at hh; cases hh
      · obtain ⟨l, a, b⟩ := cRequire_ids ⟨"hour".toList, .dbl s.2, []⟩ (show "hour".toList ≠ "ID".toList by decide) _ hid _ (Or.inl rfl)
        exact ⟨l, a, b, fun hf => by rw [hf] at hh; cases hh⟩
    · rw [if_neg hh]
      exact ⟨_, rfl, Or.inl rfl, fun _ => rfl⟩
  obtain ⟨l, h2, h3, h4⟩ := h2
  have h5 : cRequire o [l] "type".toList = .ok [l ++ [⟨"type".toList, .str type, []⟩]] := by
    unfold cRequire
    rw [h.type.1, if_pos rfl, h.type.2, foldE_cons, cRequireVal_set, if_neg ht]
    show Except.ok [cSetChar l ⟨"type".toList, .str type, []⟩ false] = _
    rw [cSetChar_new false]
    rcases h3 with rfl | ⟨v, rfl⟩ <;> rfl
  have h6 : ∀ req, cRequire o req "group".toList = .ok req ∧ cRequire o req "zone".toList = .ok req := by
    intro req
    unfold cRequire
    rw [h.group, h.zone]
    exact ⟨rfl, rfl⟩
  refine ⟨l ++ [⟨"type".toList, .str type, []⟩] ++ [⟨"name".toList, .str name, []⟩], ?_, ?_, ?_, ?_⟩
  · unfold cRequired
    rw [if_pos rfl, if_pos rfl, h.hour.2]
    dsimp only
    rw [h1]
    show (cRequire o [[⟨"hour".toList, .dbl s.2, []⟩]] "ID".toList >>= _) = _
    rw [h2]
    show (cRequire o [l] "type".toList >>= _) = _
    rw [h5]
    show (cRequire o _ "group".toList >>= _) = _
    rw [(h6 _).1]
    show (cRequire o _ "zone".toList >>= _) = _
    rw [(h6 _).2]
    rw [okE_bind]
    beta_reduce
    rw [if_neg (by simp), h.name]
    show Except.ok [cSetChar (l ++ [⟨"type".toList, .str type, []⟩]) ⟨"name".toList, .str name, []⟩ false] = _
    rw [cSetChar_new false]
    rcases h3 with rfl | ⟨v, rfl⟩ <;> rfl
  · rcases h3 with rfl | ⟨v, rfl⟩ <;> rfl
  · rcases h3 with rfl | ⟨v, rfl⟩ <;> rfl
  · intro hf
    rw [h4 hf]
    rfl

/-- the elements that are of the type, with what they give -/
theorem cTyped_flatMap {β : Type} (type : Tok) (vs : List CVertex) (f : CVertex × Nat → List β) : (vs.zipIdx.flatMap (fun q => if cType q.1 = .str type then f q else [])) = (cTyped type vs).flatMap f := by
  unfold cTyped
  generalize vs.zipIdx = l
  induction l with
  | nil => rfl
  | cons a l ih =>
    rw [List.flatMap_cons, ih]
    by_cases h : cType a.1 = .str type
    · rw [if_pos h, List.filter_cons_of_pos (by simpa using h), List.flatMap_cons]
    · rw [if_neg h, List.filter_cons_of_neg (by simpa using h), List.nil_append]

/-- the raw results -/
theorem cRaw_ok {e : CEngine} {o : List CChar} {s : CWhen} {kind name type fn : Tok} (h : CReads o s kind name type fn) {r : List CChar} (hr : (cGetChar r "type".toList).value = .str type) :
    cRaw e o [r] = .ok ((cTyped type e.verts).flatMap (fun q => if kind = "parameters".toList then cMulti q.1.params r else [cResultOf e q.1 q.2 (cGetChar r "name".toList)])) := by
  have e1 : ∀ q, cResultsOf e kind r q = if cType q.1 = .str type then (if kind = "parameters".toList then cMulti q.1.params r else [cResultOf e q.1 q.2 (cGetChar r "name".toList)]) else [] := by
    intro q
    unfold cResultsOf
    rw [hr]
    rfl
  have e2 : e.verts.zipIdx.flatMap (cResultsOf e kind r) = (cTyped type e.verts).flatMap (fun q => if kind = "parameters".toList then cMulti q.1.params r else [cResultOf e q.1 q.2 (cGetChar r "name".toList)]) := by
    rw [← cTyped_flatMap]
    congr 1
    funext q
    exact e1 q
  unfold cRaw
  by_cases hany : e.verts.zipIdx.any (fun q => [r].any (fun req => decide ((cGetChar q.1.chars "type".toList).value = (cGetChar req "type".toList).value))) = true
  · rw [if_pos hany]
    have hk : cFirstText o "type information".toList = .ok kind := by
      unfold cFirstText
      rw [h.kind]
      rfl
    rw [hk]
    show Except.ok ([r].flatMap (fun req => e.verts.zipIdx.flatMap (cResultsOf e kind req))) = _
    rw [List.flatMap_singleton, e2]
  · rw [if_neg hany, ← e2]
    have : e.verts.zipIdx.flatMap (cResultsOf e kind r) = [] := by
      rw [List.flatMap_eq_nil_iff]
      intro q hq
      rw [e1 q, if_neg]
      intro ht
      apply hany
      rw [List.any_eq_true]
      refine ⟨q, hq, ?_⟩
      rw [List.any_eq_true]
      refine ⟨r, by simp, ?_⟩
      rw [hr]
      exact decide_eq_true ht
    rw [this]

/-- what is reported -/
theorem cOutputs_ok {e : CEngine} (hmulti : e.multi = true) {s : CWhen} (hl : e.last = cSub s) (hh : s.2 ≠ -1) {output extra : List CChar} {kind name type fn : Tok}
    (hp : output.Perm (cOutputOrder kind name type fn ++ extra)) (hx : extra = [] ∨ ∃ ids : List CVal, (∀ v ∈ ids, ∃ t, v = .str t) ∧ extra = [⟨"ID".toList, cNA, ids⟩]) (ht : type ≠ "all".toList) :
    ∃ r, (extra = [] → r = [⟨"hour".toList, .dbl s.2, []⟩, ⟨"type".toList, .str type, []⟩, ⟨"name".toList, .str name, []⟩]) ∧ cGetChar r "name".toList = cNamed name ∧ CReads (output ++ cSub s) s kind name type fn ∧
      cOutputs e output = cReport (output ++ cSub s) ((cTyped type e.verts).flatMap (fun q => if kind = "parameters".toList then cMulti q.1.params r else [cResultOf e q.1 q.2 (cNamed name)])) := by
  have hx' : extra = [] ∨ ∃ ids, extra = [⟨"ID".toList, cNA, ids⟩] := by
    rcases hx with h | ⟨ids, _, h⟩
    · exact Or.inl h
    · exact Or.inr ⟨ids, h⟩
  have hR := cReads_of s hp hx'
  have hnow : cOutputNow e output = .ok (output ++ cSub s) := by
    refine cOutputNow_ok hl hh hp ?_ ?_
    · rw [List.map_append, List.mem_append]
      rintro (h | h)
      · exact absurd h (show "pt".toList ∉ ["problem".toList, "type information".toList, "name".toList, "type".toList, "function".toList] by decide +kernel)
      · rcases hx' with rfl | ⟨ids, rfl⟩
        · cases h
        · exact absurd h (show "pt".toList ∉ ["ID".toList] by decide +kernel)
    · rw [List.map_append, List.mem_append]
      rintro (h | h)
      · exact absurd h (show "hour".toList ∉ ["problem".toList, "type information".toList, "name".toList, "type".toList, "function".toList] by decide +kernel)
      · rcases hx' with rfl | ⟨ids, rfl⟩
        · cases h
        · exact absurd h (show "hour".toList ∉ ["ID".toList] by decide +kernel)
  have hid : cHas (output ++ cSub s) "ID".toList = false ∨ ∀ v ∈ (cGetChar (output ++ cSub s) "ID".toList).values, ∃ t, v = .str t := by
    rcases hx with rfl | ⟨ids, hs, rfl⟩
    · refine Or.inl (cHas_perm_none (List.Perm.append_right _ hp) ?_)
      rw [List.append_nil, List.map_append]
      exact show "ID".toList ∉ ["problem".toList, "type information".toList, "name".toList, "type".toList, "function".toList, "pt".toList, "hour".toList] by decide +kernel
    · refine Or.inr ?_
      have hn : ((cOutputOrder kind name type fn ++ [(⟨"ID".toList, cNA, ids⟩ : CChar)] ++ cSub s).map (fun c : CChar => c.name)).Nodup := by
        show ["problem".toList, "type information".toList, "name".toList, "type".toList, "function".toList, "ID".toList, "pt".toList, "hour".toList].Nodup
        decide +kernel
      have := (cGetChar_perm (List.Perm.append_right (cSub s) hp) hn (c := ⟨"ID".toList, cNA, ids⟩) (by simp)).1
      dsimp only at this
      rw [this]
      exact hs
  obtain ⟨r, h1, h2, h3, h4⟩ := cRequired_ok hR ht hid
  refine ⟨r, ?_, h3, hR, ?_⟩
  · intro hx0
    apply h4
    subst hx0
    refine cHas_perm_none (List.Perm.append_right _ hp) ?_
    rw [List.append_nil, List.map_append]
    exact show "ID".toList ∉ ["problem".toList, "type information".toList, "name".toList, "type".toList, "function".toList, "pt".toList, "hour".toList] by decide +kernel
  · have hprob : cFirstText (output ++ cSub s) "problem".toList = .ok "DC OPF".toList := by
      unfold cFirstText
      rw [hR.problem]
      rfl
    unfold cOutputs
    rw [hnow]
    show (cFirstText (output ++ cSub s) "problem".toList >>= _) = _
    rw [hprob]
    rw [okE_bind]
    beta_reduce
    rw [if_pos (c := "DC OPF".toList = "DC OPF".toList) rfl, hmulti, h1]
    show (cRaw e (output ++ cSub s) [r] >>= _) = _
    rw [cRaw_ok hR h2, h3]
    show cReport (output ++ cSub s) (cRefined (output ++ cSub s) _) = _
    unfold cRefined
    rw [hR.subtype, if_neg (by simp)]

theorem cReport_none {o : List CChar} {s : CWhen} {kind name type : Tok} (h : CReads o s kind name type "none".toList) (rs : List CResult) (g : CResult → Rat) (hg : ∀ r ∈ rs, r.value.getDbl = .ok (g r)) :
    cReport o rs = .ok (rs.map g).zipIdx := by
  unfold cReport cFirstText
  rw [h.fn]
  dsimp only
  rw [getStr_bind]
  beta_reduce
  rw [if_pos (c := "none".toList = "none".toList) rfl, mapE_all _ g rs hg]
  rfl

theorem cReport_sum {o : List CChar} {s : CWhen} {kind name type : Tok} (h : CReads o s kind name type "sum".toList) (rs : List CResult) (g : CResult → Rat) (hg : ∀ r ∈ rs, r.value.getDbl = .ok (g r)) :
    cReport o rs = .ok [((rs.map g).sum, 0)] := by
  unfold cReport cFirstText
  rw [h.fn]
  dsimp only
  rw [getStr_bind]
  beta_reduce
  rw [if_neg (c := "sum".toList = "none".toList) (by decide), if_pos (c := "sum".toList = "sum".toList) rfl, mapE_all _ g rs hg]
  rfl

end Pyensys
