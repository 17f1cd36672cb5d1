import Verif.Props.EngineOutputs

/-!
# What the compiled engine returns

C206, continued.
-/

namespace Pyensys

/-! ## Lemmas -/

theorem getDbl_error {v : CVal} {err : CErr} (h : v.getDbl = .error err) : err = .badGet := by
  cases v <;> first | (cases h; done) | (cases h; rfl)

/-- a list of values one of which is not a number -/
theorem mapDbl_error : ∀ (rs : List CResult), (∃ r ∈ rs, ∀ q, r.value ≠ .dbl q) → rs.mapM (fun r => r.value.getDbl) = .error .badGet
  | [], h => by obtain ⟨r, hr, _⟩ := h; cases hr
  | r :: rs, h => by
    rw [List.mapM_cons]
    cases hv : r.value.getDbl with
    | error err => rw [getDbl_error hv]; rfl
    | ok q =>
      have hq : r.value = .dbl q := by
        cases hr : r.value <;> rw [hr] at hv <;> cases hv
        rfl
      obtain ⟨a, ha, hna⟩ := h
      rcases List.mem_cons.1 ha with rfl | ha
      · exact absurd hq (hna q)
      · rw [okE_bind]
        rw [mapDbl_error rs ⟨a, ha, hna⟩]
        rfl

/-- the value of a variable that exists -/
theorem cResultOf_some {subs : List CWhen} {ws : List CVertex} {p : CProb} (hP : CProgram subs ws p) {e : CEngine} (he : CLive ws p e) {s : CWhen} (h1 : s.1 ≠ []) (h2 : s.2 ≠ -1) (hl : e.last = cSub s) (v : CVertex) (node : Nat) (name : Tok) {w : Rat}
    (h : cValue e node name s = some w) : (cResultOf e v node (cNamed name)).value = .dbl w := by
  have hn := C202_columns_partial subs ws p hP.prob hP.nodup
  unfold cValue at h
  by_cases hex : ∃ c ∈ p.cols, c.id = ⟨node, name, cExtra s⟩
  · obtain ⟨c, hc, hid⟩ := hex
    obtain ⟨k, hk1, hk2⟩ := cVarAt_of hn hc
    rw [← hid, cValue_at hP he hk2] at h
    rw [hid] at hk1
    unfold cResultOf
    rw [hl, he.cols, (cWith_sub name s h1 h2).2]
    show (match cVarAt p.cols node (cKey ⟨node, name, cExtra s⟩) with | none => cNone | some k => _ : CResult).value = _
    rw [hk1]
    dsimp only
    rw [h]
    rfl
  · rw [cBeside_none _ _ _ (by rw [he.cols]; exact fun c hc he => hex ⟨c, hc, he⟩)] at h
    cases h

/-- a variable that does not exist -/
theorem cResultOf_none {subs : List CWhen} {ws : List CVertex} {p : CProb} (hP : CProgram subs ws p) {e : CEngine} (he : CLive ws p e) {s : CWhen} (h1 : s.1 ≠ []) (h2 : s.2 ≠ -1) (hl : e.last = cSub s) (v : CVertex) (node : Nat) (name : Tok)
    (h : cValue e node name s = none) : cResultOf e v node (cNamed name) = cNone := by
  have hn := C202_columns_partial subs ws p hP.prob hP.nodup
  have : cVarAt e.cols node (cWith [cNamed name] e.last) = none := by
    rw [cVarAt_none, he.cols, hl, (cWith_sub name s h1 h2).2]
    rintro c hc ⟨g1, g2⟩
    have hid : c.id = ⟨node, name, cExtra s⟩ := cKey_inj g1 g2
    obtain ⟨k, hk⟩ := List.mem_iff_getElem?.1 hc
    unfold cValue at h
    rw [← hid, cValue_at hP he hk] at h
    have := (List.getElem?_eq_some_iff.1 hk).1
    rw [← he.vals] at this
    rw [List.getElem?_eq_getElem this] at h
    cases h
  unfold cResultOf
  rw [this]

theorem cReturn_one {e : CEngine} {output : List CChar} {r : List (Rat × Nat)} (h : cOutputs e output = .ok r) : cReturnOutputs e [output] = .ok r := by
  unfold cReturnOutputs
  rw [mapE_all (cOutputs e) (fun _ => r) [output] (fun a ha => by rw [List.mem_singleton.1 ha]; exact h)]
  show Except.ok [r].flatten = _
  rw [List.flatten_singleton]

theorem cReturn_error {e : CEngine} {output : List CChar} {err : CErr} (h : cOutputs e output = .error err) : cReturnOutputs e [output] = .error err := by
  unfold cReturnOutputs
  rw [List.mapM_cons, h]
  rfl

/-- outputs of variables, with or without IDs -/
theorem cVariables_ok {subs : List CWhen} {ws : List CVertex} {p : CProb} (hP : CProgram subs ws p) {e : CEngine} (he : CLive ws p e) (hmulti : e.multi = true) {s : CWhen} (h1 : s.1 ≠ []) (h2 : s.2 ≠ -1) (hl : e.last = cSub s)
    {name type fn : Tok} (ht : type ≠ "all".toList) (hfn : fn = "none".toList ∨ fn = "sum".toList) {output extra : List CChar} (hp : output.Perm (cOutputOrder "variables".toList name type fn ++ extra))
    (hx : extra = [] ∨ ∃ ids : List CVal, (∀ v ∈ ids, ∃ t, v = .str t) ∧ extra = [⟨"ID".toList, cNA, ids⟩])
    (g : CVertex × Nat → Rat) (hg : ∀ q ∈ cTyped type ws, cValue e q.2 name s = some (g q)) :
    cReturnOutputs e [output] = .ok (if fn = "none".toList then ((cTyped type ws).map g).zipIdx else [(((cTyped type ws).map g).sum, 0)]) := by
  obtain ⟨r, _, _, hR, h⟩ := cOutputs_ok hmulti hl h2 hp hx ht
  have hv : ∀ q ∈ cTyped type ws, (cResultOf e q.1 q.2 (cNamed name)).value = .dbl (g q) := fun q hq => cResultOf_some hP he h1 h2 hl q.1 q.2 name (hg q hq)
  have hflat : (cTyped type e.verts).flatMap (fun q => if "variables".toList = "parameters".toList then cMulti q.1.params r else [cResultOf e q.1 q.2 (cNamed name)]) = (cTyped type ws).map (fun q => cResultOf e q.1 q.2 (cNamed name)) := by
    rw [he.verts, List.map_eq_flatMap]
    congr 1
  rw [hflat] at h
  have hd : ∀ a ∈ (cTyped type ws).map (fun q => cResultOf e q.1 q.2 (cNamed name)), a.value.getDbl = .ok (okD a.value.getDbl 0) := by
    intro a ha
    obtain ⟨q, hq, rfl⟩ := List.mem_map.1 ha
    rw [hv q hq]
    rfl
  have hmap : ((cTyped type ws).map (fun q => cResultOf e q.1 q.2 (cNamed name))).map (fun a => okD a.value.getDbl 0) = (cTyped type ws).map g := by
    rw [List.map_map]
    apply List.map_congr_left
    intro q hq
    show okD (cResultOf e q.1 q.2 (cNamed name)).value.getDbl 0 = g q
    rw [hv q hq]
    rfl
  apply cReturn_one
  rw [h]
  rcases hfn with rfl | rfl
  · rw [cReport_none hR _ (fun a => okD a.value.getDbl 0) hd, hmap, if_pos (c := "none".toList = "none".toList) rfl]
  · rw [cReport_sum hR _ (fun a => okD a.value.getDbl 0) hd, hmap, if_neg (c := "sum".toList = "none".toList) (by decide)]

/-! ## C206 -/

/-- **C206.** An output of a variable of the elements of a type, in whatever order its characteristics are given, is the list of the values of that variable in the period that was evaluated last, one for each element in the order of the network, numbered from 0; with the function 'sum' it is their sum. -/
theorem C206_variables_partial (subs : List CWhen) (ws : List CVertex) (p : CProb) (hP : CProgram subs ws p) (e : CEngine) (he : CLive ws p e) (hmulti : e.multi = true) (s : CWhen) (h1 : s.1 ≠ []) (h2 : s.2 ≠ -1) (hl : e.last = cSub s)
    (name type fn : Tok) (ht : type ≠ "all".toList) (hfn : fn = "none".toList ∨ fn = "sum".toList) (output : List CChar) (hp : output.Perm (cOutputOrder "variables".toList name type fn))
    (g : CVertex × Nat → Rat) (hg : ∀ q ∈ cTyped type ws, cValue e q.2 name s = some (g q)) :
    cReturnOutputs e [output] = .ok (if fn = "none".toList then ((cTyped type ws).map g).zipIdx else [(((cTyped type ws).map g).sum, 0)]) :=
  cVariables_ok hP he hmulti h1 h2 hl ht hfn (extra := []) (by rw [List.append_nil]; exact hp) (Or.inl rfl) g hg

/-- **C206.** After an evaluation, the outputs of the variables of the buses are what the solver found for the period, in per unit; so are those of the generators if all of them are in service. -/
theorem C206_run_partial (subs : List CWhen) (ws : List CVertex) (p : CProb) (hP : CProgram subs ws p) (e : CEngine) (he : CLive ws p e) (hmulti : e.multi = true) (s : CWhen) (hs : s ∈ subs) (h1 : s.1 ≠ []) (h2 : s.2 ≠ -1) (x : CId → Rat) :
    ∃ e', cEvaluate x (cSub s) e = .ok e' ∧
      (∀ name, (name = "voltage angle".toList ∨ name = "load curtailment".toList ∨ name = "generation curtailment".toList) → ∀ output : List CChar, output.Perm (cOutputOrder "variables".toList name "bus".toList "none".toList) →
        cReturnOutputs e' [output] = .ok ((cOf cIsBus ws).map (fun q => x ⟨q.2, name, cExtra s⟩)).zipIdx) ∧
      ((∀ q ∈ cOf cIsGen ws, cOn q.1 s = true) → ∀ output : List CChar, output.Perm (cOutputOrder "variables".toList "active power generation".toList "generator".toList "none".toList) →
        cReturnOutputs e' [output] = .ok ((cOf cIsGen ws).map (fun q => x ⟨q.2, "active power generation".toList, cExtra s⟩)).zipIdx) := by
  obtain ⟨e', a1, a2, _, a4, a5, a6, _, _⟩ := C204_values_partial subs ws p hP e he s hs h1 h2 x
  have hm : e'.multi = true := by
    unfold cEvaluate at a1
    obtain ⟨v, _, a1⟩ := (bindE_iff _ _ _).1 a1
    cases a1
    exact hmulti
  refine ⟨e', a1, ?_, ?_⟩
  · intro name hname output hp
    have := C206_variables_partial subs ws p hP e' a2 hm s h1 h2 a4 name "bus".toList "none".toList (by decide) (Or.inl rfl) output hp (fun q => x ⟨q.2, name, cExtra s⟩) (fun q hq => a5 q hq name hname)
    rw [if_pos (c := "none".toList = "none".toList) rfl] at this
    exact this
  · intro hon output hp
    have := C206_variables_partial subs ws p hP e' a2 hm s h1 h2 a4 "active power generation".toList "generator".toList "none".toList (by decide) (Or.inl rfl) output hp (fun q => x ⟨q.2, "active power generation".toList, cExtra s⟩) (fun q hq => (a6 q hq (hon q hq)).1)
    rw [if_pos (c := "none".toList = "none".toList) rfl] at this
    exact this

/-- **C206** violated: IDs are ignored: an output of a variable of some elements is that of all elements of the type. -/
theorem C206_ids_violated (subs : List CWhen) (ws : List CVertex) (p : CProb) (hP : CProgram subs ws p) (e : CEngine) (he : CLive ws p e) (hmulti : e.multi = true) (s : CWhen) (h1 : s.1 ≠ []) (h2 : s.2 ≠ -1) (hl : e.last = cSub s)
    (name type fn : Tok) (ht : type ≠ "all".toList) (hfn : fn = "none".toList ∨ fn = "sum".toList) (ids : List CVal) (hids : ∀ v ∈ ids, ∃ t, v = .str t) (output : List CChar)
    (hp : output.Perm (cOutputOrder "variables".toList name type fn ++ [⟨"ID".toList, cNA, ids⟩])) (g : CVertex × Nat → Rat) (hg : ∀ q ∈ cTyped type ws, cValue e q.2 name s = some (g q)) :
    cReturnOutputs e [output] = .ok (if fn = "none".toList then ((cTyped type ws).map g).zipIdx else [(((cTyped type ws).map g).sum, 0)]) :=
  cVariables_ok hP he hmulti h1 h2 hl ht hfn hp (Or.inr ⟨ids, hids, rfl⟩) g hg

/-- **C206** violated: one element of the type without the variable (a generator without a cost function, if costs are asked for) ends the program: nothing is returned for any element. -/
theorem C206_missing_violated (subs : List CWhen) (ws : List CVertex) (p : CProb) (hP : CProgram subs ws p) (e : CEngine) (he : CLive ws p e) (hmulti : e.multi = true) (s : CWhen) (h1 : s.1 ≠ []) (h2 : s.2 ≠ -1) (hl : e.last = cSub s)
    (name type fn : Tok) (ht : type ≠ "all".toList) (hfn : fn = "none".toList ∨ fn = "sum".toList) (output : List CChar) (hp : output.Perm (cOutputOrder "variables".toList name type fn))
    (q : CVertex × Nat) (hq : q ∈ cTyped type ws) (hno : cValue e q.2 name s = none) : cReturnOutputs e [output] = .error .badGet := by
  obtain ⟨r, _, _, hR, h⟩ := cOutputs_ok (kind := "variables".toList) (name := name) (fn := fn) hmulti hl h2 (extra := []) (output := output) (by rw [List.append_nil]; exact hp) (Or.inl rfl) ht
  apply cReturn_error
  rw [h]
  have hmem : cNone ∈ (cTyped type e.verts).flatMap (fun q => if "variables".toList = "parameters".toList then cMulti q.1.params r else [cResultOf e q.1 q.2 (cNamed name)]) := by
    rw [List.mem_flatMap]
    refine ⟨q, by rw [he.verts]; exact hq, ?_⟩
    rw [if_neg (c := "variables".toList = "parameters".toList) (by decide), cResultOf_none hP he h1 h2 hl q.1 q.2 name hno]
    exact List.mem_singleton.2 rfl
  have hbad := mapDbl_error _ ⟨cNone, hmem, fun q h => by cases h⟩
  unfold cReport cFirstText
  rw [hR.fn]
  dsimp only
  rw [getStr_bind]
  beta_reduce
  rcases hfn with rfl | rfl
  · rw [if_pos (c := "none".toList = "none".toList) rfl, hbad]
    rfl
  · rw [if_neg (c := "sum".toList = "none".toList) (by decide), if_pos (c := "sum".toList = "sum".toList) rfl, hbad]
    rfl

/-- **C206** violated: outputs before the first evaluation end the program. -/
theorem C206_before_violated (e : CEngine) (h : e.last = []) (output : List CChar) (outputs : List (List CChar)) : cReturnOutputs e (output :: outputs) = .error .badGet := by
  have : cOutputs e output = .error .badGet := by
    unfold cOutputs cOutputNow
    rw [h]
    rfl
  unfold cReturnOutputs
  rw [List.mapM_cons, this]
  rfl

/-- **C206.** An output of a parameter: the values of the entries, of the elements of the type, that have the hour of the last evaluation, the type and the name. -/
theorem C206_parameters_partial (e : CEngine) (hmulti : e.multi = true) (s : CWhen) (h2 : s.2 ≠ -1) (hl : e.last = cSub s)
    (name type fn : Tok) (ht : type ≠ "all".toList) (hfn : fn = "none".toList ∨ fn = "sum".toList) (output : List CChar) (hp : output.Perm (cOutputOrder "parameters".toList name type fn))
    (vals : List Rat) (hv : List.Forall₂ (fun (i : CInfo) v => i.value = .dbl v) ((cTyped type e.verts).flatMap (fun q => q.1.params.filter (fun i =>
      decide ((⟨"hour".toList, .dbl s.2, []⟩ : CChar) ∈ i.chars ∧ (⟨"type".toList, .str type, []⟩ : CChar) ∈ i.chars ∧ (⟨"name".toList, .str name, []⟩ : CChar) ∈ i.chars)))) vals) :
    cReturnOutputs e [output] = .ok (if fn = "none".toList then vals.zipIdx else [(vals.sum, 0)]) := by
  obtain ⟨r, hr, _, hR, h⟩ := cOutputs_ok (kind := "parameters".toList) (name := name) (fn := fn) hmulti hl h2 (extra := []) (output := output) (by rw [List.append_nil]; exact hp) (Or.inl rfl) ht
  have hflat : (cTyped type e.verts).flatMap (fun q => if "parameters".toList = "parameters".toList then cMulti q.1.params r else [cResultOf e q.1 q.2 (cNamed name)]) = (cTyped type e.verts).flatMap (fun q => q.1.params.filter (fun i =>
      decide ((⟨"hour".toList, .dbl s.2, []⟩ : CChar) ∈ i.chars ∧ (⟨"type".toList, .str type, []⟩ : CChar) ∈ i.chars ∧ (⟨"name".toList, .str name, []⟩ : CChar) ∈ i.chars))) := by
    congr 1
    funext q
    rw [if_pos (c := "parameters".toList = "parameters".toList) rfl, hr rfl]
    unfold cMulti
    apply List.filter_congr
    intro i _
    rw [Bool.eq_iff_iff, cSubset_iff, decide_eq_true_iff]
    simp only [List.mem_cons, List.not_mem_nil, or_false, forall_eq_or_imp, forall_eq]
  rw [hflat] at h
  have hd : ∀ a ∈ ((cTyped type e.verts).flatMap (fun q => q.1.params.filter (fun i =>
      decide ((⟨"hour".toList, .dbl s.2, []⟩ : CChar) ∈ i.chars ∧ (⟨"type".toList, .str type, []⟩ : CChar) ∈ i.chars ∧ (⟨"name".toList, .str name, []⟩ : CChar) ∈ i.chars)))), a.value.getDbl = .ok (okD a.value.getDbl 0) := by
    intro a ha
    obtain ⟨k, hk⟩ := List.mem_iff_getElem?.1 ha
    obtain ⟨v, _, hv'⟩ := forall₂_forth hv k a hk
    rw [hv']
    rfl
  have hmap : ∀ (l : List CInfo) (w : List Rat), List.Forall₂ (fun (i : CInfo) v => i.value = .dbl v) l w → l.map (fun a => okD a.value.getDbl 0) = w := by
    intro l w hw
    induction hw with
    | nil => rfl
    | cons h1 _ ih =>
      rw [List.map_cons, ih, h1]
      rfl
  apply cReturn_one
  rw [h]
  rcases hfn with rfl | rfl
  · rw [cReport_none hR _ (fun a => okD a.value.getDbl 0) hd, hmap _ _ hv, if_pos (c := "none".toList = "none".toList) rfl]
  · rw [cReport_sum hR _ (fun a => okD a.value.getDbl 0) hd, hmap _ _ hv, if_neg (c := "sum".toList = "none".toList) (by decide)]

/-- **C206.** Several outputs are those of each, one after the other. -/
theorem C206_several_partial (e : CEngine) (outputs : List (List CChar)) (r : List (Rat × Nat)) :
    cReturnOutputs e outputs = .ok r ↔ ∃ rs, List.Forall₂ (fun o q => cReturnOutputs e [o] = .ok q) outputs rs ∧ r = rs.flatten := by
  have one : ∀ o q, cReturnOutputs e [o] = .ok q ↔ cOutputs e o = .ok q := by
    intro o q
    cases h : cOutputs e o with
    | ok w => rw [cReturn_one h]
    | error err => rw [cReturn_error h]
  unfold cReturnOutputs
  rw [bindE_iff]
  constructor
  · rintro ⟨rs, h1, h2⟩
    refine ⟨rs, ?_, (Except.ok.inj h2).symm⟩
    exact ((mapE_iff _ _ _).1 h1).imp (fun o q h => (one o q).2 h)
  · rintro ⟨rs, h1, rfl⟩
    exact ⟨rs, (mapE_iff _ _ _).2 (h1.imp (fun o q h => (one o q).1 h)), rfl⟩

/-! ## examples -/

/-- the engine after the evaluation of the first hour of the week day -/
def cExRun : CEngine := okD (cEvaluate cExWeekSol (cSub (cExWhen "w" 1)) cExWeek) cExWeek

def cExAsk (kind name type fn : String) : List CChar := cOutputOrder kind.toList name.toList type.toList fn.toList

theorem cExRun_live : CLive cExWeek.verts cExWeek.loaded cExRun ∧ cExRun.last = cSub (cExWhen "w" 1) ∧ cExRun.multi = true := by
  refine ⟨⟨by decide +kernel, by decide +kernel, by decide +kernel, by decide +kernel, by decide +kernel, by decide +kernel, by decide +kernel⟩, by decide +kernel, by decide +kernel⟩

theorem C206_witness : cExRun.multi = true ∧ cExRun.last = cSub (cExWhen "w" 1) ∧ (cTyped "generator".toList cExWeek.verts).length = 2 ∧
    (∀ q ∈ cTyped "generator".toList cExWeek.verts, cValue cExRun q.2 "active power generation".toList (cExWhen "w" 1) = some (if q.2 = 2 then 1/2 else 0)) ∧
    (∃ q ∈ cTyped "generator".toList cExWeek.verts, cValue cExRun q.2 "active power generation cost".toList (cExWhen "w" 1) = none) ∧
    (cReturnOutputs cExRun [cExAsk "variables" "active power generation" "generator" "none"]).toOption = some [(1/2, 0), (0, 1)] ∧
    (cReturnOutputs cExRun [cExAsk "variables" "active power generation" "generator" "sum"]).toOption = some [(1/2, 0)] ∧
    (cReturnOutputs cExRun [cExAsk "variables" "active power generation cost" "generator" "none"]).toOption = none := by
  refine ⟨by decide +kernel, by decide +kernel, by decide +kernel, by decide +kernel, by decide +kernel, by decide +kernel, by decide +kernel, by decide +kernel⟩

/-- **C206** violated: parameters are returned for all representative periods: the demands of the week day and of the weekend; and parameters that do not depend on the hour are not returned at all. -/
theorem C206_periods_violated : (cReturnOutputs cExRun [cExAsk "parameters" "Pd" "bus" "none"]).toOption = some [(0, 0), (0, 1), (1/2, 2), (3/10, 3)] ∧
    (cReturnOutputs cExRun [cExAsk "parameters" "Pd" "bus" "sum"]).toOption = some [(4/5, 0)] ∧
    (cReturnOutputs cExRun [cExAsk "parameters" "active power max limit" "generator" "none"]).toOption = some [] := by
  refine ⟨by decide +kernel, by decide +kernel, by decide +kernel⟩

/-- **C206** violated: an output without a type is empty, with a sum of 0; of several types only the last counts; and the places of the results of several outputs are the same. -/
theorem C206_types_violated : (cReturnOutputs cExRun [(cExAsk "variables" "active power generation" "generator" "none").eraseIdx 3]).toOption = some [] ∧
    (cReturnOutputs cExRun [(cExAsk "variables" "active power generation" "generator" "sum").eraseIdx 3]).toOption = some [(0, 0)] ∧
    (cReturnOutputs cExRun [(cExAsk "parameters" "Pd" "bus" "none").set 3 ⟨"type".toList, cNA, [.str "bus".toList, .str "generator".toList]⟩]).toOption = some [] ∧
    (cReturnOutputs cExRun [cExAsk "variables" "active power generation" "generator" "none", cExAsk "variables" "voltage angle" "bus" "none"]).toOption = some [(1/2, 0), (0, 1), (0, 0), (-1/20, 1)] := by
  refine ⟨by decide +kernel, by decide +kernel, by decide +kernel, by decide +kernel⟩

/-- entries of parameters with subtypes -/
def cExSub (id : String) (subs : List String) : CResult := ⟨[⟨"ID".toList, .str id.toList, []⟩, ⟨"subtype".toList, cNA, subs.map (fun s => .str s.toList)⟩], .dbl 1⟩

/-- **C206** violated: a result that has two of the subtypes that are asked for is returned twice if there is another one, and once if it is alone. -/
theorem C206_subtypes_violated : cRefined [⟨"type".toList, cNA, []⟩, ⟨"subtype".toList, cNA, [.str "hydro".toList, .str "run of river".toList]⟩] [cExSub "g1" ["hydro"], cExSub "g2" ["hydro", "run of river"]] =
      [cExSub "g1" ["hydro"], cExSub "g2" ["hydro", "run of river"], cExSub "g2" ["hydro", "run of river"]] ∧
    cRefined [⟨"type".toList, cNA, []⟩, ⟨"subtype".toList, cNA, [.str "hydro".toList, .str "run of river".toList]⟩] [cExSub "g2" ["hydro", "run of river"]] = [cExSub "g2" ["hydro", "run of river"]] := by
  refine ⟨by decide +kernel, by decide +kernel⟩

end Pyensys
