import Verif.Lemmas.Container
import Mathlib.Data.List.Nodup
import Batteries.Data.List.Perm

/-!
# Properties C01 - C09: `AbstractDataContainer`

The specifications in this file mention neither flags nor association-list helpers of the model:
dictionary mode is specified by a function `K → Option V`, list mode by a log of entries.
-/

set_option linter.unusedSectionVars false

namespace Pyensys
variable {K V : Type} [DecidableEq K]

/-! ## Specification -/

/-- A client call that changes a container.  `extend ps` extends by another container of the same
kind that was filled by appending the pairs `ps` one after the other. -/
inductive Op (K V : Type)
  | append (k : K) (v : V)
  | set (k : K) (v : V)
  | pop (k : K)
  | extend (ps : List (K × V))

/-- What the client sees: an exception or a return value (`none` is Python's `None`). -/
abbrev Out (V : Type) := Except PyErr (Option V)

/-- Abstract map: write one key. -/
def MapSpec.write (m : K → Option V) (k : K) (v : V) : K → Option V :=
  fun k' => if k' = k then some v else m k'

/-- One call on the abstract map. -/
def MapSpec.step (m : K → Option V) : Op K V → (K → Option V) × Out V
  | .append k v => (MapSpec.write m k v, .ok none)
  | .set k v => (MapSpec.write m k v, .ok none)
  | .pop k => match m k with
    | some v => ((fun k' => if k' = k then none else m k'), .ok (some v))
    | none => (m, .error .key)
  | .extend ps => (ps.foldl (fun m e => MapSpec.write m e.1 e.2) m, .ok none)

/-- Run a history on the abstract map. -/
def MapSpec.run (m : K → Option V) : List (Op K V) → (K → Option V) × List (Out V)
  | [] => (m, [])
  | o :: os => let r := MapSpec.step m o
               let q := MapSpec.run r.1 os
               (q.1, r.2 :: q.2)

/-- One call on the abstract log of entries (oldest first): a relation. -/
inductive LogSpec.Step : List (K × V) → Op K V → List (K × V) → Out V → Prop
  | append l k v : Step l (.append k v) (l ++ [(k, v)]) (.ok none)
  | popNewest a b k v : (∀ e ∈ b, e.1 ≠ k) →
      Step (a ++ (k, v) :: b) (.pop k) (a ++ b) (.ok (some v))
  | popMissing l k : (∀ e ∈ l, e.1 ≠ k) → Step l (.pop k) l (.error .key)
  | set l l' k v : l'.length = l.length →
      (∀ (i : Nat) (e : K × V), l[i]? = some e → l'[i]? = some (if e.1 = k then (k, v) else e)) →
      Step l (.set k v) l' (.ok none)
  | extend l ps : Step l (.extend ps) (l ++ ps) (.ok none)

/-- A history on the abstract log. -/
inductive LogSpec.Run : List (K × V) → List (Op K V) → List (K × V) → List (Out V) → Prop
  | nil l : Run l [] l []
  | cons {l l' l'' o os out outs} : LogSpec.Step l o l' out → Run l' os l'' outs →
      Run l (o :: os) l'' (out :: outs)

/-! ## Client runs of the modelled code -/

/-- The other container handed to `extend`: same kind, filled with `append`. -/
def filled (dict : Bool) (ps : List (K × V)) : ADC K V :=
  let fresh : ADC K V := if dict then ADC.new.createDictionary else ADC.new.createList
  ps.foldl (fun c e => match c.append e.1 e.2 with | .ok c' => c' | .error _ => c) fresh

/-- Perform one client call on the modelled container; a raised exception leaves the object as it
was at the raise, which in every branch is the unchanged object. -/
def ADC.step (dict : Bool) (c : ADC K V) : Op K V → ADC K V × Out V
  | .append k v => match c.append k v with | .ok c' => (c', .ok none) | .error e => (c, .error e)
  | .set k v => match c.setItem k v with | .ok c' => (c', .ok none) | .error e => (c, .error e)
  | .pop k => match c.pop k with | .ok (r, c') => (c', .ok r) | .error e => (c, .error e)
  | .extend ps => match c.extend (filled dict ps) with
      | .ok c' => (c', .ok none) | .error e => (c, .error e)

/-- A client history on the modelled container. -/
def ADC.run (dict : Bool) (c : ADC K V) : List (Op K V) → ADC K V × List (Out V)
  | [] => (c, [])
  | o :: os => let r := c.step dict o
               let q := ADC.run dict r.1 os
               (q.1, r.2 :: q.2)

/-! ## C01 -/

theorem filled_dict (ps : List (K × V)) :
    filled true ps = (⟨.dict (dictUpdate [] ps), true, false⟩ : ADC K V) := by
  have : ∀ (d : List (K × V)),
      ps.foldl (fun c e => match ADC.append c e.1 e.2 with | .ok c' => c' | .error _ => c)
        (⟨.dict d, true, false⟩ : ADC K V) = ⟨.dict (dictUpdate d ps), true, false⟩ := by
    induction ps with
    | nil => intro d; rfl
    | cons e ps ih => intro d; exact ih (dictSet d e.1 e.2)
  exact this []

theorem filled_list (ps : List (K × V)) :
    filled false ps = (⟨.list ps, false, true⟩ : ADC K V) := by
  have : ∀ (d : List (K × V)),
      ps.foldl (fun c e => match ADC.append c e.1 e.2 with | .ok c' => c' | .error _ => c)
        (⟨.list d, false, true⟩ : ADC K V) = ⟨.list (d ++ ps), false, true⟩ := by
    induction ps with
    | nil => intro d; simp
    | cons e ps ih =>
      intro d
      have := ih (d ++ [(e.1, e.2)])
      rw [List.append_assoc] at this
      exact this
  exact this []

theorem foldl_write_get (ps : List (K × V)) (m : K → Option V) (k : K) :
    ps.foldl (fun m e => MapSpec.write m e.1 e.2) m k =
      (dictGet? (dictUpdate [] ps) k).or (m k) := by
  have gen : ∀ (d : List (K × V)) (m : K → Option V),
      ps.foldl (fun m e => MapSpec.write m e.1 e.2) (fun k => (dictGet? d k).or (m k)) k =
        (dictGet? (dictUpdate d ps) k).or (m k) := by
    induction ps with
    | nil => intro d m; rfl
    | cons e ps ih =>
      intro d m
      have h := ih (dictSet d e.1 e.2) m
      simp only [List.foldl_cons]
      rw [show dictUpdate d (e :: ps) = dictUpdate (dictSet d e.1 e.2) ps from rfl, ← h]
      have hw : MapSpec.write (fun k => (dictGet? d k).or (m k)) e.1 e.2 =
          fun k => (dictGet? (dictSet d e.1 e.2) k).or (m k) := by
        funext k'
        unfold MapSpec.write
        rw [dictGet?_set]
        by_cases hk : k' = e.1 <;> simp [hk]
      rw [hw]
  have := gen [] m
  simpa [dictGet?] using this

theorem dictGet?_update (a b : List (K × V)) (hb : KeysNodup b) (k : K) :
    dictGet? (dictUpdate a b) k = (dictGet? b k).or (dictGet? a k) := by
  induction b generalizing a with
  | nil => simp [dictUpdate, dictGet?]
  | cons e b ih =>
    have hb' : KeysNodup b := (List.nodup_cons.1 hb).2
    have he : e.1 ∉ b.map (·.1) := (List.nodup_cons.1 hb).1
    rw [show dictUpdate a (e :: b) = dictUpdate (dictSet a e.1 e.2) b from rfl, ih _ hb', dictGet?_set]
    have hc : dictGet? (e :: b) k = if e.1 = k then some e.2 else dictGet? b k := by
      unfold dictGet?; by_cases h : e.1 = k <;> simp [h]
    rw [hc]
    by_cases hk : k = e.1
    · subst hk
      have : dictGet? b e.1 = none := by
        cases hg : dictGet? b e.1 with
        | none => rfl
        | some v => exact absurd ((dictGet?_isSome_iff b e.1).1 (by simp [hg])) he
      simp [this]
    · simp [hk, Ne.symm hk]

/-- The relation between a dictionary-mode container and an abstract map. -/
def DictRel (c : ADC K V) (m : K → Option V) : Prop :=
  ∃ d, c = ⟨.dict d, true, false⟩ ∧ KeysNodup d ∧ ∀ k, dictGet? d k = m k

theorem dict_step {c : ADC K V} {m : K → Option V} (h : DictRel c m) (o : Op K V) :
    DictRel (c.step true o).1 (MapSpec.step m o).1 ∧ (c.step true o).2 = (MapSpec.step m o).2 := by
  obtain ⟨d, rfl, hd, hm⟩ := h
  cases o with
  | append k v =>
    refine ⟨⟨dictSet d k v, rfl, keysNodup_set hd k v, fun k' => ?_⟩, rfl⟩
    simp only [MapSpec.step, MapSpec.write]; rw [dictGet?_set, hm]
  | set k v =>
    refine ⟨⟨dictSet d k v, rfl, keysNodup_set hd k v, fun k' => ?_⟩, rfl⟩
    simp only [MapSpec.step, MapSpec.write]; rw [dictGet?_set, hm]
  | pop k =>
    cases hk : dictGet? d k with
    | some v =>
      have hk' : m k = some v := by rw [← hm, hk]
      simp only [ADC.step, ADC.pop, MapSpec.step, hk, hk', if_true]
      refine ⟨⟨dictErase d k, rfl, keysNodup_erase hd k, fun k' => ?_⟩, trivial⟩
      rw [dictGet?_erase, hm]
    | none =>
      have hk' : m k = none := by rw [← hm, hk]
      simp only [ADC.step, ADC.pop, MapSpec.step, hk, hk', if_true]
      exact ⟨⟨d, rfl, hd, hm⟩, trivial⟩
  | extend ps =>
    simp only [ADC.step, MapSpec.step, filled_dict]
    refine ⟨⟨dictUpdate d (dictUpdate [] ps), rfl, keysNodup_update hd _, fun k => ?_⟩, rfl⟩
    rw [dictGet?_update _ _ (keysNodup_update (a := []) List.nodup_nil ps), foldl_write_get, hm]

/-- **C01.** Every history of `append`, item assignment, `extend` and `pop` on a container made by
`create_dictionary` returns what the abstract map returns, and afterwards `get`, `[·]`, `len` and
iteration observe exactly that map. -/
theorem C01_dictionary_is_a_map (ops : List (Op K V)) :
    let r := ADC.run true ADC.new.createDictionary ops
    let s := MapSpec.run (fun _ => none) ops
    r.2 = s.2 ∧
    (∀ k, r.1.get k = .ok (s.1 k)) ∧
    (∀ k, r.1.getItem k = match s.1 k with | some v => .ok (some v) | none => .error .key) ∧
    (∃ keys : List K, keys.Nodup ∧ (∀ k, k ∈ keys ↔ (s.1 k).isSome) ∧ r.1.len = keys.length) ∧
    (∃ its, r.1.items = .ok its ∧ its.Nodup ∧ ∀ k v, (k, v) ∈ its ↔ s.1 k = some v) := by
  have key : ∀ (ops : List (Op K V)) (c : ADC K V) (m : K → Option V), DictRel c m →
      DictRel (ADC.run true c ops).1 (MapSpec.run m ops).1 ∧
      (ADC.run true c ops).2 = (MapSpec.run m ops).2 := by
    intro ops
    induction ops with
    | nil => intro c m h; exact ⟨h, rfl⟩
    | cons o os ih =>
      intro c m h
      obtain ⟨h1, h2⟩ := dict_step h o
      obtain ⟨h3, h4⟩ := ih _ _ h1
      exact ⟨h3, by simp only [ADC.run, MapSpec.run]; rw [h2, h4]⟩
  have h0 : DictRel (ADC.new.createDictionary : ADC K V) (fun _ => none) :=
    ⟨[], rfl, List.nodup_nil, fun k => rfl⟩
  obtain ⟨⟨d, hc, hd, hm⟩, ho⟩ := key ops _ _ h0
  refine ⟨ho, ?_, ?_, ?_, ?_⟩
  · intro k; rw [hc, ← hm]; rfl
  · intro k; rw [hc, ← hm]; simp only [ADC.getItem, if_true]; cases dictGet? d k <;> rfl
  · refine ⟨d.map Prod.fst, hd, fun k => ?_, ?_⟩
    · rw [← hm, dictGet?_isSome_iff]
    · rw [hc]; simp [ADC.len]
  · refine ⟨d, by rw [hc]; rfl, ?_, fun k v => ?_⟩
    · exact List.Pairwise.of_map (·.1) (fun a b hab h => hab (by rw [h])) hd
    · rw [← hm, mem_iff_dictGet? hd]

-- non-vacuity: a concrete history with an overwrite, a missing pop and an extend
example : (ADC.run true ADC.new.createDictionary
    [Op.append "a" 1, .set "b" 2, .append "a" 3, .pop "z", .extend [("b", 5), ("c", 6)], .pop "a"]).2
    = [.ok none, .ok none, .ok none, .error .key, .ok none, .ok (some (3 : Nat))] := by decide

/-! ## C02 -/

theorem list_step (l : List (K × V)) (o : Op K V) : ∃ l',
    ((⟨.list l, false, true⟩ : ADC K V).step false o).1 = ⟨.list l', false, true⟩ ∧
    LogSpec.Step l o l' ((⟨.list l, false, true⟩ : ADC K V).step false o).2 := by
  cases o with
  | append k v => exact ⟨_, rfl, .append l k v⟩
  | set k v =>
    refine ⟨listSet l k v, rfl, .set l _ k v (by simp [listSet]) ?_⟩
    intro i e he
    simp only [listSet, List.getElem?_map, he, Option.map_some]
    split
    · rename_i h; rw [← h]
    · rfl
  | pop k =>
    by_cases h : ∃ e ∈ l, e.1 = k
    · obtain ⟨a, v, b, rfl, hb⟩ := exists_last_split k l h
      have hp := listPop_hit k a b v hb
      refine ⟨a ++ b, ?_, ?_⟩
      · simp [ADC.step, ADC.pop, hp]
      · have : ((⟨.list (a ++ (k, v) :: b), false, true⟩ : ADC K V).step false (.pop k)).2
            = .ok (some v) := by simp [ADC.step, ADC.pop, hp]
        rw [this]; exact .popNewest a b k v hb
    · have h' : ∀ e ∈ l, e.1 ≠ k := fun e he hk => h ⟨e, he, hk⟩
      have hp := listPop_miss k l h'
      refine ⟨l, by simp [ADC.step, ADC.pop, hp], ?_⟩
      have : ((⟨.list l, false, true⟩ : ADC K V).step false (.pop k)).2 = .error .key := by
        simp [ADC.step, ADC.pop, hp]
      rw [this]; exact .popMissing l k h'
  | extend ps =>
    refine ⟨l ++ ps, ?_, ?_⟩
    · simp [ADC.step, filled_list, ADC.extend]
    · have : ((⟨.list l, false, true⟩ : ADC K V).step false (.extend ps)).2 = .ok none := by
        simp [ADC.step, filled_list, ADC.extend]
      rw [this]; exact .extend l ps

/-- **C02.** Every history on a container made by `create_list` is a history of the abstract log
(pop removes the newest entry with the key, failing pops change nothing), and afterwards `len` is
the number of live entries, iteration yields them oldest first, and `get`/`[·]` return the oldest
entry with the key, `None` when there is none, never an exception. -/
theorem C02_list_is_a_log (ops : List (Op K V)) :
    let r := ADC.run false ADC.new.createList ops
    ∃ log, LogSpec.Run [] ops log r.2 ∧
      r.1.len = log.length ∧
      r.1.items = .ok log ∧
      (∀ a b k v, log = a ++ (k, v) :: b → (∀ e ∈ a, e.1 ≠ k) →
        r.1.get k = .ok (some v) ∧ r.1.getItem k = .ok (some v)) ∧
      (∀ k, (∀ e ∈ log, e.1 ≠ k) → r.1.get k = .ok none ∧ r.1.getItem k = .ok none) := by
  have key : ∀ (ops : List (Op K V)) (l : List (K × V)), ∃ log,
      (ADC.run false ⟨.list l, false, true⟩ ops).1 = ⟨.list log, false, true⟩ ∧
      LogSpec.Run l ops log (ADC.run false ⟨.list l, false, true⟩ ops).2 := by
    intro ops
    induction ops with
    | nil => intro l; exact ⟨l, rfl, .nil l⟩
    | cons o os ih =>
      intro l
      obtain ⟨l', h1, h2⟩ := list_step l o
      obtain ⟨log, h3, h4⟩ := ih l'
      refine ⟨log, ?_, ?_⟩
      · simp only [ADC.run]; rw [h1]; exact h3
      · simp only [ADC.run]; rw [h1]; exact .cons h2 h4
  obtain ⟨log, hc, hr⟩ := key ops []
  refine ⟨log, hr, ?_, ?_, ?_, ?_⟩
  · show (ADC.run false ⟨.list [], false, true⟩ ops).1.len = _
    rw [hc]; rfl
  · show (ADC.run false ⟨.list [], false, true⟩ ops).1.items = _
    rw [hc]; rfl
  · intro a b k v hl ha
    have hg : listGet? log k = some v := (listGet?_eq_some_iff log k v).2 ⟨a, b, hl, ha⟩
    show (ADC.run false ⟨.list [], false, true⟩ ops).1.get k = _ ∧
      (ADC.run false ⟨.list [], false, true⟩ ops).1.getItem k = _
    rw [hc]; simp [ADC.get, ADC.getItem, hg]
  · intro k hk
    have hg := (listGet?_eq_none_iff log k).2 hk
    show (ADC.run false ⟨.list [], false, true⟩ ops).1.get k = _ ∧
      (ADC.run false ⟨.list [], false, true⟩ ops).1.getItem k = _
    rw [hc]; simp [ADC.get, ADC.getItem, hg]

-- non-vacuity: duplicates; get sees the oldest, pop takes the newest
example : (ADC.run false ADC.new.createList
    [Op.append "a" 1, .append "b" 2, .append "a" 3, .pop "a", .pop "z"]).2
    = [.ok none, .ok none, .ok none, .ok (some (3 : Nat)), .error .key] := by decide

/-! ## C03 -/

/-- Well-nested append/pop histories together with the values their pops must return. -/
inductive WellNested : List (Op K V) → List (Out V) → Prop
  | nil : WellNested [] []
  | bracket {ops outs} (k : K) (v : V) : WellNested ops outs →
      WellNested (.append k v :: ops ++ [.pop k]) (.ok none :: outs ++ [.ok (some v)])
  | seq {o1 o2 r1 r2} : WellNested o1 r1 → WellNested o2 r2 → WellNested (o1 ++ o2) (r1 ++ r2)

theorem run_append (dict : Bool) (c : ADC K V) (a b : List (Op K V)) :
    ADC.run dict c (a ++ b) =
      ((ADC.run dict (ADC.run dict c a).1 b).1,
       (ADC.run dict c a).2 ++ (ADC.run dict (ADC.run dict c a).1 b).2) := by
  induction a generalizing c with
  | nil => rfl
  | cons o os ih => simp only [List.cons_append, ADC.run]; rw [ih]

/-- **C03.** On a list-mode container with arbitrary contents (the keys may already occur) a
well-nested sequence of appends and pops returns the matching values and restores the container. -/
theorem C03_append_pop_restores (l : List (K × V)) {ops : List (Op K V)} {outs : List (Out V)}
    (h : WellNested ops outs) :
    ADC.run false ⟨.list l, false, true⟩ ops = (⟨.list l, false, true⟩, outs) := by
  induction h generalizing l with
  | nil => rfl
  | @bracket ops outs k v _ ih =>
    have h1 : ADC.run false ⟨.list l, false, true⟩ (Op.append k v :: ops) =
        (⟨.list (l ++ [(k, v)]), false, true⟩, .ok none :: outs) := by
      simp only [ADC.run, ADC.step, ADC.append, if_true, Bool.false_eq_true, if_false]
      rw [ih]
    rw [run_append, h1]
    simp [ADC.run, ADC.step, ADC.pop]
  | seq _ _ ih1 ih2 => rw [run_append, ih1, ih2]

example : WellNested [Op.append "0" 1, .append "0" 2, .pop "0", .pop "0"]
    [.ok none, .ok none, .ok (some 2), .ok (some (1 : Nat))] :=
  .bracket "0" 1 (.bracket "0" 2 .nil)

/-! ## C04 -/

/-- **C04.** Item assignment in list mode: same length, matching entries get the value, the others
are untouched; in particular nothing happens when the key is absent.  In dictionary mode an absent
key is created. -/
theorem C04_set_item_frame (c : ADC K V) (l : List (K × V)) (k : K) (v : V) :
    (c = ⟨.list l, false, true⟩ → ∃ l', c.setItem k v = .ok ⟨.list l', false, true⟩ ∧
      l'.length = l.length ∧
      (∀ (i : Nat) (k' : K) (v' : V), l[i]? = some (k', v') → l'[i]? = some (k', if k' = k then v else v')) ∧
      ((∀ e ∈ l, e.1 ≠ k) → l' = l)) ∧
    (c = ⟨.dict l, true, false⟩ → (∀ e ∈ l, e.1 ≠ k) →
      c.setItem k v = .ok ⟨.dict (l ++ [(k, v)]), true, false⟩) := by
  constructor
  · rintro rfl
    refine ⟨listSet l k v, rfl, by simp [listSet], ?_, ?_⟩
    · intro i k' v' h
      simp only [listSet, List.getElem?_map, h, Option.map_some]
      split <;> rfl
    · intro h
      unfold listSet
      conv_rhs => rw [← List.map_id l]
      apply List.map_congr_left
      intro e he; rw [if_neg (h e he)]; rfl
  · rintro rfl h
    have : ¬ (l.any (fun e => e.1 = k) = true) := by
      rw [List.any_eq_true]; rintro ⟨e, he, hk⟩; exact h e he (by simpa using hk)
    simp [ADC.setItem, dictSet, this]

example : (⟨.list [("a", 1), ("b", 2), ("a", 3)], false, true⟩ : ADC String Nat).setItem "a" 9
    = .ok ⟨.list [("a", 9), ("b", 2), ("a", 9)], false, true⟩ := by decide

/-! ## C05 -/

section
variable [BEq V]

/-- `e` is equal (key equal, value `==`) to some item of `b`. -/
def OccursIn (e : K × V) (b : List (K × V)) : Prop := ∃ x ∈ b, x.1 = e.1 ∧ (x.2 == e.2) = true

/-- `d` is `a` with exactly the items not satisfying `P` deleted: a subsequence of `a` in which
each item satisfying `P` keeps its multiplicity. -/
inductive KeptExactly (P : K × V → Prop) : List (K × V) → List (K × V) → Prop
  | nil : KeptExactly P [] []
  | keep {e a d} : P e → KeptExactly P a d → KeptExactly P (e :: a) (e :: d)
  | drop {e a d} : ¬ P e → KeptExactly P a d → KeptExactly P (e :: a) d

theorem itemMem_iff (b : List (K × V)) (e : K × V) : ADC.itemMem b e = true ↔ OccursIn e b := by
  simp [ADC.itemMem, OccursIn, List.any_eq_true]

omit [DecidableEq K] [BEq V] in
theorem keptExactly_filter (P : K × V → Prop) (p : K × V → Bool) (h : ∀ e, p e = true ↔ P e)
    (a : List (K × V)) : KeptExactly P a (a.filter p) := by
  induction a with
  | nil => exact .nil
  | cons e a ih =>
    by_cases hp : p e = true
    · rw [List.filter_cons_of_pos hp]; exact .keep ((h e).1 hp) ih
    · rw [List.filter_cons_of_neg hp]; exact .drop (fun hP => hp ((h e).2 hP)) ih

/-- **C05, lists.** The difference keeps exactly the items of `a` that do not occur in `b`, in
order and with multiplicity.  (Inputs are values in the model, hence unchanged.) -/
theorem C05_difference_lists (isNone : V → Bool) (a b : List (K × V)) :
    ∃ d, difference isNone (⟨.list a, false, true⟩ : ADC K V) ⟨.list b, false, true⟩
        = .ok ⟨.list d, false, true⟩ ∧
      KeptExactly (fun e => ¬ OccursIn e b) a d := by
  refine ⟨differenceLists a b, rfl, keptExactly_filter _ _ ?_ a⟩
  intro e
  rw [← itemMem_iff]; simp

theorem differenceDicts_eq (isNone : V → Bool) (a b : List (K × V)) :
    differenceDicts isNone a b = a.filter (fun e => !(b.any (fun f => decide (f.1 = e.1) &&
      (match dictGet? a f.1 with | some v => !isNone v && v == f.2 | none => false)))) := by
  have gen : ∀ (b acc : List (K × V)),
      b.foldl (fun acc e => match dictGet? a e.1 with
        | some v => if !isNone v && v == e.2 then dictErase acc e.1 else acc
        | .none => acc) acc =
      acc.filter (fun e => !(b.any (fun f => decide (f.1 = e.1) &&
        (match dictGet? a f.1 with | some v => !isNone v && v == f.2 | none => false)))) := by
    intro b
    induction b with
    | nil => intro acc; simp
    | cons f b ih =>
      intro acc
      rw [List.foldl_cons, ih]
      cases hg : dictGet? a f.1 with
      | none =>
        apply List.filter_congr
        intro e he
        rw [List.any_cons, hg]; simp
      | some v =>
        by_cases hv : (!isNone v && v == f.2) = true
        · simp only [hv, if_true, dictErase]
          rw [List.filter_filter]
          apply List.filter_congr
          intro e he
          simp only [List.any_cons, hg, hv]
          by_cases h1 : e.1 = f.1
          · simp [h1]
          · simp [h1, Ne.symm h1]
        · simp only [hv]
          apply List.filter_congr
          intro e he
          simp [List.any_cons, hg, hv]
  exact gen b a

/-- **C05, dictionaries.** An entry `(k, v)` of `a` survives iff `v` is Python's `None` or `b` does
not map `k` to a value `w` with `v == w`; nothing else is in the result. -/
theorem C05_difference_dicts (isNone : V → Bool) (a b : List (K × V))
    (ha : KeysNodup a) :
    ∃ d, difference isNone (⟨.dict a, true, false⟩ : ADC K V) ⟨.dict b, true, false⟩
        = .ok ⟨.dict d, true, false⟩ ∧
      KeptExactly (fun e => isNone e.2 = true ∨ ∀ w, (e.1, w) ∈ b → (e.2 == w) = false) a d := by
  refine ⟨differenceDicts isNone a b, rfl, ?_⟩
  rw [differenceDicts_eq]
  have hcong : a.filter (fun e => !(b.any (fun f => decide (f.1 = e.1) &&
      (match dictGet? a f.1 with | some v => !isNone v && v == f.2 | none => false)))) =
      a.filter (fun e => !(b.any (fun f => decide (f.1 = e.1) && (!isNone e.2 && e.2 == f.2)))) := by
    apply List.filter_congr
    intro e he
    congr 1
    apply Bool.eq_iff_iff.2
    simp only [List.any_eq_true]
    constructor
    · rintro ⟨f, hf, h⟩
      rw [Bool.and_eq_true, decide_eq_true_iff] at h
      obtain ⟨h1, h2⟩ := h
      refine ⟨f, hf, ?_⟩
      rw [h1, dictGet?_of_mem ha (v := e.2) he] at h2
      rw [Bool.and_eq_true, decide_eq_true_iff]
      exact ⟨h1, h2⟩
    · rintro ⟨f, hf, h⟩
      rw [Bool.and_eq_true, decide_eq_true_iff] at h
      obtain ⟨h1, h2⟩ := h
      refine ⟨f, hf, ?_⟩
      rw [Bool.and_eq_true, decide_eq_true_iff]
      refine ⟨h1, ?_⟩
      rw [h1, dictGet?_of_mem ha (v := e.2) he]
      exact h2
  rw [hcong]
  apply keptExactly_filter
  intro e
  rw [Bool.not_eq_true', ← Bool.not_eq_true, List.any_eq_true]
  constructor
  · intro h
    by_cases hn : isNone e.2 = true
    · exact Or.inl hn
    · refine Or.inr (fun w hw => ?_)
      cases hew : (e.2 == w) with
      | false => rfl
      | true => exact absurd ⟨(e.1, w), hw, by simp [hn, hew]⟩ h
  · rintro (hn | h) ⟨f, hf, hfe⟩
    · simp [hn] at hfe
    · simp only [Bool.and_eq_true, decide_eq_true_iff] at hfe
      have := h f.2 (by rw [← hfe.1]; exact hf)
      rw [this] at hfe; simp at hfe

/-- The exception is real: with `None` values the "difference" of a dictionary with itself is not
empty. -/
theorem C05_none_entries_survive :
    difference Option.isNone (⟨.dict [("a", none), ("b", some 1)], true, false⟩ : ADC String (Option Nat))
      ⟨.dict [("a", none), ("b", some 1)], true, false⟩ = .ok ⟨.dict [("a", none)], true, false⟩ := by
  decide

example : difference (fun _ => false)
    (⟨.list [("0", 1), ("1", 2), ("0", 1), ("2", 2)], false, true⟩ : ADC String Nat)
    ⟨.list [("0", 1), ("2", 7)], false, true⟩ = .ok ⟨.list [("1", 2), ("2", 2)], false, true⟩ := by
  decide

/-! ## C06 -/

/-- **C06.** `b in a` on lists: every item of `b` occurs in `a`; on dictionaries: `a` maps every key
of `b` to a value equal to `b`'s. -/
theorem C06_contains_iff (a b : List (K × V)) :
    (ADC.contains (⟨.list a, false, true⟩ : ADC K V) ⟨.list b, false, true⟩ = .ok true ↔
      ∀ e ∈ b, OccursIn e a) ∧
    (KeysNodup b → (ADC.contains (⟨.dict a, true, false⟩ : ADC K V) ⟨.dict b, true, false⟩ = .ok true ↔
      ∀ k w, (k, w) ∈ b → ∃ v, dictGet? a k = some v ∧ (v == w) = true)) := by
  constructor
  · simp only [ADC.contains, Bool.false_eq_true, Bool.and_false, if_false, Bool.and_true, if_true,
      Except.ok.injEq, ADC.compareLists, List.all_eq_true, itemMem_iff]
  · intro hb
    simp only [ADC.contains, Bool.and_self, if_true, Except.ok.injEq, ADC.compareDictionaries,
      List.all_eq_true]
    constructor
    · intro h k w hkw
      have := h _ hkw
      simp only [dictGet?_of_mem hb hkw] at this
      cases hg : dictGet? a k with
      | none => simp [hg] at this
      | some v => simp only [hg] at this; exact ⟨v, rfl, this⟩
    · rintro h ⟨k, w⟩ hkw
      obtain ⟨v, hv, hvw⟩ := h k w hkw
      simp [hv, dictGet?_of_mem hb hkw, hvw]

/-- **C06, preorder on lists.** For an equivalence `==` containment is reflexive and transitive. -/
theorem C06_contains_preorder_lists (hr : ∀ v : V, (v == v) = true)
    (ht : ∀ u v w : V, (u == v) = true → (v == w) = true → (u == w) = true)
    (a b c : List (K × V)) :
    ADC.contains (⟨.list a, false, true⟩ : ADC K V) ⟨.list a, false, true⟩ = .ok true ∧
    (ADC.contains (⟨.list a, false, true⟩ : ADC K V) ⟨.list b, false, true⟩ = .ok true →
      ADC.contains (⟨.list b, false, true⟩ : ADC K V) ⟨.list c, false, true⟩ = .ok true →
      ADC.contains (⟨.list a, false, true⟩ : ADC K V) ⟨.list c, false, true⟩ = .ok true) := by
  simp only [(C06_contains_iff _ _).1]
  refine ⟨fun e he => ⟨e, he, rfl, hr _⟩, fun h1 h2 e he => ?_⟩
  obtain ⟨x, hx, hxe, hx2⟩ := h2 e he
  obtain ⟨y, hy, hyx, hy2⟩ := h1 x hx
  exact ⟨y, hy, hyx.trans hxe, ht _ _ _ hy2 hx2⟩

/-- **C06, preorder on dictionaries.** -/
theorem C06_contains_preorder_dicts (hr : ∀ v : V, (v == v) = true)
    (ht : ∀ u v w : V, (u == v) = true → (v == w) = true → (u == w) = true)
    (a b c : List (K × V)) (ha : KeysNodup a) (hb : KeysNodup b) (hc : KeysNodup c) :
    ADC.contains (⟨.dict a, true, false⟩ : ADC K V) ⟨.dict a, true, false⟩ = .ok true ∧
    (ADC.contains (⟨.dict a, true, false⟩ : ADC K V) ⟨.dict b, true, false⟩ = .ok true →
      ADC.contains (⟨.dict b, true, false⟩ : ADC K V) ⟨.dict c, true, false⟩ = .ok true →
      ADC.contains (⟨.dict a, true, false⟩ : ADC K V) ⟨.dict c, true, false⟩ = .ok true) := by
  simp only [(C06_contains_iff _ _).2 ha, (C06_contains_iff _ _).2 hb, (C06_contains_iff _ _).2 hc]
  refine ⟨fun k w h => ⟨w, dictGet?_of_mem ha h, hr _⟩, fun h1 h2 k w hw => ?_⟩
  obtain ⟨v, hv, hvw⟩ := h2 k w hw
  obtain ⟨u, hu, huv⟩ := h1 k v (dictGet?_mem hv)
  exact ⟨u, hu, ht _ _ _ huv hvw⟩

/-- **C06, antisymmetry for dictionaries.** Mutual containment makes `a == b` answer True. -/
theorem C06_dict_antisymm (a b : List (K × V)) (ha : KeysNodup a) (hb : KeysNodup b)
    (h1 : ADC.contains (⟨.dict a, true, false⟩ : ADC K V) ⟨.dict b, true, false⟩ = .ok true)
    (h2 : ADC.contains (⟨.dict b, true, false⟩ : ADC K V) ⟨.dict a, true, false⟩ = .ok true) :
    ADC.eq (⟨.dict b, true, false⟩ : ADC K V) ⟨.dict a, true, false⟩ = .ok true := by
  rw [(C06_contains_iff _ _).2 hb] at h1
  rw [(C06_contains_iff _ _).2 ha] at h2
  have hlen : ∀ (x y : List (K × V)), KeysNodup x →
      (∀ k w, (k, w) ∈ x → ∃ v, dictGet? y k = some v ∧ True) → x.length ≤ y.length := by
    intro x y hx h
    have hsub : x.map (·.1) ⊆ y.map (·.1) := by
      intro k hk
      obtain ⟨e, he, rfl⟩ := List.mem_map.1 hk
      obtain ⟨v, hv, -⟩ := h e.1 e.2 he
      exact (dictGet?_isSome_iff y e.1).1 (by simp [hv])
    have := (List.subperm_of_subset hx hsub).length_le
    simpa using this
  have hle1 := hlen b a hb (fun k w h => by obtain ⟨v, hv, -⟩ := h1 k w h; exact ⟨v, hv, trivial⟩)
  have hle2 := hlen a b ha (fun k w h => by obtain ⟨v, hv, -⟩ := h2 k w h; exact ⟨v, hv, trivial⟩)
  have hl : b.length = a.length := Nat.le_antisymm hle1 hle2
  simp only [ADC.eq, Bool.and_self, Bool.true_or, if_true, ADC.storeEq, hl, beq_self_eq_true,
    Bool.true_and, Except.ok.injEq, List.all_eq_true]
  intro e he
  obtain ⟨v, hv, hve⟩ := h1 e.1 e.2 he
  obtain ⟨u, hu, huv⟩ := h2 e.1 v (dictGet?_mem hv)
  rw [dictGet?_of_mem hb he] at hu
  cases hu
  simp [hv, huv]


/-- **C06, lists are not antisymmetric**: these two differ in multiplicity but contain each other. -/
theorem C06_list_not_antisymm :
    let a : ADC String Nat := ⟨.list [("k", 1), ("k", 1)], false, true⟩
    let b : ADC String Nat := ⟨.list [("k", 1)], false, true⟩
    a.contains b = .ok true ∧ b.contains a = .ok true ∧ a.eq b = .ok false := by decide

example : KeysNodup [("a", 1), ("b", 2)] := by unfold KeysNodup; decide
example : ADC.contains (⟨.list [("a", 1), ("b", 2)], false, true⟩ : ADC String Nat)
    ⟨.list [("b", 2)], false, true⟩ = .ok true := by decide

/-! ## C07 -/

/-- Containers reachable through the API: built by `create_dictionary`, `create_list`, `append`, item
assignment, `pop` and `extend`, in any order. -/
inductive Reachable : ADC K V → Prop
  | new : Reachable ADC.new
  | createDictionary {c} : Reachable c → Reachable c.createDictionary
  | createList {c} : Reachable c → Reachable c.createList
  | append {c c'} k v : Reachable c → c.append k v = .ok c' → Reachable c'
  | setItem {c c'} k v : Reachable c → c.setItem k v = .ok c' → Reachable c'
  | pop {c c'} k r : Reachable c → c.pop k = .ok (r, c') → Reachable c'
  | extend {c c' o} : Reachable c → Reachable o → c.extend o = .ok c' → Reachable c'

/-- the two containers are both dictionaries or both lists -/
def SameKind (a b : ADC K V) : Prop :=
  (a.isDict = true ∧ b.isDict = true) ∨ (a.isList = true ∧ b.isList = true)

/-- neither `create_dictionary` nor `create_list` has been called -/
def Uninitialised (a : ADC K V) : Prop := a.isDict = false ∧ a.isList = false

/-- **C07.** On containers of different kinds `!=`, `in`, `extend` and the difference raise
TypeError; `==` raises TypeError unless both are uninitialised, when it answers True (while `!=`
raises).  (The objects are values in the model: a raising call returns no new object, i.e. both stay
as they were.) -/
theorem C07_kind_mismatch (isNone : V → Bool) (a b : ADC K V) (h : ¬ SameKind a b) :
    a.ne b = .error .type ∧ a.contains b = .error .type ∧ a.extend b = .error .type ∧
    difference isNone a b = .error .type ∧
    (a.eq b = if a.isDict = false ∧ a.isList = false ∧ b.isDict = false ∧ b.isList = false
      then .ok true else .error .type) := by
  obtain ⟨sa, da, la⟩ := a
  obtain ⟨sb, db, lb⟩ := b
  unfold SameKind at h
  cases da <;> cases la <;> cases db <;> cases lb <;>
    simp_all [ADC.ne, ADC.contains, ADC.extend, difference, ADC.eq]

theorem reachable_flags {c : ADC K V} (h : Reachable c) :
    (Uninitialised c ∧ c.store = .none) ∨ (∃ d, c.store = .dict d ∧ c.isDict = true) ∨
      (∃ l, c.store = .list l ∧ c.isList = true) := by
  induction h with
  | new => left; exact ⟨⟨rfl, rfl⟩, rfl⟩
  | createDictionary _ _ => right; left; exact ⟨[], rfl, rfl⟩
  | createList _ _ => right; right; exact ⟨[], rfl, rfl⟩
  | @append c c' k v _ hc ih =>
    unfold ADC.append at hc
    split at hc
    · split at hc <;> cases hc
      right; left; exact ⟨_, rfl, by assumption⟩
    · split at hc
      · split at hc <;> cases hc
        right; right; exact ⟨_, rfl, by assumption⟩
      · cases hc; exact ih
  | @setItem c c' k v _ hc ih =>
    unfold ADC.setItem at hc
    split at hc
    · split at hc <;> cases hc
      right; left; exact ⟨_, rfl, by assumption⟩
    · split at hc
      · split at hc <;> cases hc
        right; right; exact ⟨_, rfl, by assumption⟩
      · cases hc; exact ih
  | @pop c c' k r _ hc ih =>
    unfold ADC.pop at hc
    split at hc
    · split at hc
      · split at hc <;> cases hc
        right; left; exact ⟨_, rfl, by assumption⟩
      · cases hc
    · split at hc
      · split at hc
        · split at hc <;> cases hc
          right; right; exact ⟨_, rfl, by assumption⟩
        · cases hc
      · cases hc; exact ih
  | @extend c c' o _ _ hc ih _ =>
    unfold ADC.extend at hc
    split at hc
    · rename_i h1
      rw [Bool.and_eq_true] at h1
      split at hc <;> cases hc <;> (right; left; exact ⟨_, rfl, h1.1⟩)
    · split at hc
      · rename_i h1
        rw [Bool.and_eq_true] at h1
        split at hc <;> cases hc
        right; right; exact ⟨_, rfl, h1.1⟩
      · cases hc

/-- **C07, converse.** For containers built by any sequence of API calls in which `create_dictionary`
and `create_list` were not both called on the same container, none of these operations raises on two
containers of the same kind, and `!=` is the negation of `==`. -/
theorem C07_same_kind_ok (isNone : V → Bool) {a b : ADC K V} (ha : Reachable a) (hb : Reachable b)
    (ha1 : ¬ (a.isDict = true ∧ a.isList = true)) (hb1 : ¬ (b.isDict = true ∧ b.isList = true))
    (h : SameKind a b) :
    (∃ r, a.eq b = .ok r ∧ a.ne b = .ok (!r)) ∧ (∃ r, a.contains b = .ok r) ∧
      (∃ r, a.extend b = .ok r) ∧ (∃ r, difference isNone a b = .ok r) := by
  have fa := reachable_flags ha
  have fb := reachable_flags hb
  obtain ⟨sa, da, la⟩ := a
  obtain ⟨sb, db, lb⟩ := b
  unfold SameKind at h
  rcases h with ⟨h1, h2⟩ | ⟨h1, h2⟩
  · simp only at h1 h2; subst h1 h2
    simp only [true_and, Bool.not_eq_true] at ha1 hb1; subst ha1 hb1
    simp [Uninitialised] at fa fb
    obtain ⟨x, rfl⟩ := fa
    obtain ⟨y, rfl⟩ := fb
    simp [ADC.ne, ADC.contains, ADC.extend, difference, ADC.eq]
  · simp only at h1 h2; subst h1 h2
    simp only [and_true, Bool.not_eq_true] at ha1 hb1; subst ha1 hb1
    simp [Uninitialised] at fa fb
    obtain ⟨x, rfl⟩ := fa
    obtain ⟨y, rfl⟩ := fb
    simp [ADC.ne, ADC.contains, ADC.extend, difference, ADC.eq]

example : Reachable (⟨.list [("a", 1)], false, true⟩ : ADC String Nat) :=
  .append "a" 1 (.createList .new) rfl

/-- A container on which `create_dictionary` and then `create_list` were called is broken: it is a
list, but every dictionary-style access raises (no element can ever be added or read). -/
theorem C07_double_create_is_unusable (c : ADC K V) (k : K) (v : V) :
    let b := c.createDictionary.createList
    b.append k v = .error .type ∧ b.setItem k v = .error .type ∧ b.getItem k = .error .type ∧
      b.get k = .error .attribute ∧ b.pop k = .error .type ∧ b.len = 0 := by
  simp [ADC.createDictionary, ADC.createList, ADC.append, ADC.setItem, ADC.getItem, ADC.get, ADC.pop,
    ADC.len]

example : ¬ SameKind (ADC.new.createList : ADC String Nat) ADC.new.createDictionary := by
  simp [SameKind, ADC.createList, ADC.createDictionary, ADC.new]

end

/-! ## C08 -/

/-- A loop body that does not touch the container's iterator, logging the item it sees. -/
def logItem (e : K × V) (s : IterState × List (K × V)) : IterState × List (K × V) :=
  (s.1, s.2 ++ [e])

/-- A loop body that loops over the same container, logging (outer item, inner item) pairs. -/
def nestedBody (l : List (K × V)) (fuel : Nat) (e : K × V)
    (s : IterState × List ((K × V) × (K × V))) : IterState × List ((K × V) × (K × V)) :=
  forIn l (fun f s => (s.1, s.2 ++ [(e, f)])) fuel s

omit [DecidableEq K] in
theorem forLoop_log {T : Type} (l : List (K × V)) (g : K × V → T) (pre suf : List (K × V))
    (hl : l = pre ++ suf) (fuel : Nat) (hf : suf.length < fuel) (t : List T) :
    forLoop l (fun e s => (s.1, s.2 ++ [g e])) fuel (⟨some pre.length⟩, t)
      = (⟨some l.length⟩, t ++ suf.map g) := by
  induction suf generalizing pre fuel t with
  | nil =>
    cases fuel with
    | zero => simp at hf
    | succ n =>
      simp only [List.append_nil] at hl
      subst hl
      simp [forLoop, iterNext]
  | cons e suf ih =>
    cases fuel with
    | zero => simp at hf
    | succ n =>
      have hget : l[pre.length]? = some e := by rw [hl]; simp
      simp only [forLoop, iterNext, hget]
      have := ih (pre ++ [e]) (by rw [hl]; simp) n (by simp at hf; omega) (t ++ [g e])
      simp only [List.length_append, List.length_singleton] at this
      rw [this]; simp

/-- **C08, single loop.** A loop whose body does not iterate the container again sees every item
once, in order (for every container, whatever loop ran before). -/
theorem C08_single_loop (l : List (K × V)) (s : IterState) (fuel : Nat) (hf : l.length < fuel) :
    (forIn l logItem fuel (s, [])).2 = l := by
  have h := forLoop_log (T := K × V) l id [] l rfl fuel hf []
  simp only [List.map_id, List.nil_append, id_eq, List.length_nil] at h
  unfold forIn logItem iterStart
  rw [h]

/-- **C08, nested loop.** If the body loops over the same container, the outer loop stops after its
first item: the pairs visited are `(first, y)` only, for every non-empty container. -/
theorem C08_nested_loop (x : K × V) (l : List (K × V)) (s : IterState) (fuel : Nat)
    (hf : (x :: l).length < fuel) :
    (forIn (x :: l) (nestedBody (x :: l) fuel) fuel (s, [])).2 = (x :: l).map (fun y => (x, y)) := by
  obtain ⟨n, rfl⟩ : ∃ n, fuel = n + 2 := ⟨fuel - 2, by simp at hf; omega⟩
  have h := forLoop_log (x :: l) (fun f => (x, f)) [] (x :: l) rfl (n + 2) hf []
  simp only [List.length_nil, List.nil_append] at h
  have h1 : forIn (x :: l) (nestedBody (x :: l) (n + 2)) (n + 2) (s, []) =
      forLoop (x :: l) (nestedBody (x :: l) (n + 2)) (n + 1)
        (nestedBody (x :: l) (n + 2) x (⟨some 1⟩, [])) := rfl
  have h2 : nestedBody (x :: l) (n + 2) x (⟨some 1⟩, []) =
      (⟨some (x :: l).length⟩, (x :: l).map (fun y => (x, y))) := by
    unfold nestedBody forIn iterStart; exact h
  rw [h1, h2]
  simp [forLoop, iterNext]

/-- Hence a nested loop does *not* visit all pairs as soon as there are two items. -/
theorem C08_nested_loop_misses_pairs (x y : K × V) (l : List (K × V)) (s : IterState) (fuel : Nat)
    (hf : (x :: y :: l).length < fuel) :
    (forIn (x :: y :: l) (nestedBody (x :: y :: l) fuel) fuel (s, [])).2.length <
      (x :: y :: l).length * (x :: y :: l).length := by
  rw [C08_nested_loop x (y :: l) s fuel hf]
  simp only [List.length_map, List.length_cons]
  have : l.length + 1 + 1 = (l.length + 1 + 1) * 1 := by omega
  exact Nat.lt_of_lt_of_le (by omega : l.length + 1 + 1 < (l.length + 1 + 1) * 2)
    (Nat.mul_le_mul_left _ (by omega))

example : (forIn [("a", 1), ("b", 2)] (nestedBody [("a", 1), ("b", 2)] 9) 9 (⟨none⟩, [])).2
    = [(("a", 1), ("a", 1)), (("a", 1), ("b", 2))] := by decide

/-! ## C09 -/

/-- **C09, lists.** -/
theorem C09_extend_lists (a b c : List (K × V)) :
    ADC.extend (⟨.list a, false, true⟩ : ADC K V) ⟨.list b, false, true⟩
      = .ok ⟨.list (a ++ b), false, true⟩ ∧
    ADC.extend (⟨.list a, false, true⟩ : ADC K V) ADC.new.createList = .ok ⟨.list a, false, true⟩ ∧
    (∃ ab bc r, ADC.extend (⟨.list a, false, true⟩ : ADC K V) ⟨.list b, false, true⟩ = .ok ab ∧
      ADC.extend (⟨.list b, false, true⟩ : ADC K V) ⟨.list c, false, true⟩ = .ok bc ∧
      ab.extend ⟨.list c, false, true⟩ = .ok r ∧
      ADC.extend (⟨.list a, false, true⟩ : ADC K V) bc = .ok r) := by
  refine ⟨rfl, ?_, ?_⟩
  · simp [ADC.extend, ADC.new, ADC.createList]
  · exact ⟨_, _, _, rfl, rfl, rfl, by simp [ADC.extend]⟩

/-- **C09, dictionaries.** After `a.extend(b)` lookups prefer `b`; extending by an empty dictionary
changes nothing; the order of nested extends does not matter for lookups. -/
theorem C09_extend_dicts (a b c : List (K × V)) (hb : KeysNodup b) (hc : KeysNodup c) :
    (∃ r, ADC.extend (⟨.dict a, true, false⟩ : ADC K V) ⟨.dict b, true, false⟩ = .ok r ∧
      ∀ k, r.get k = .ok (match dictGet? b k with | some v => some v | none => dictGet? a k)) ∧
    ADC.extend (⟨.dict a, true, false⟩ : ADC K V) ADC.new.createDictionary
      = .ok ⟨.dict a, true, false⟩ ∧
    (∃ ab bc r1 r2, ADC.extend (⟨.dict a, true, false⟩ : ADC K V) ⟨.dict b, true, false⟩ = .ok ab ∧
      ADC.extend (⟨.dict b, true, false⟩ : ADC K V) ⟨.dict c, true, false⟩ = .ok bc ∧
      ab.extend ⟨.dict c, true, false⟩ = .ok r1 ∧
      ADC.extend (⟨.dict a, true, false⟩ : ADC K V) bc = .ok r2 ∧ ∀ k, r1.get k = r2.get k) := by
  refine ⟨⟨_, rfl, fun k => ?_⟩, ?_, ⟨_, _, _, _, rfl, rfl, rfl, rfl, fun k => ?_⟩⟩
  · simp only [ADC.get, if_true, dictGet?_update a b hb k]
    cases dictGet? b k <;> simp
  · simp [ADC.extend, ADC.new, ADC.createDictionary, dictUpdate]
  · simp only [ADC.get, if_true]
    rw [dictGet?_update _ _ hc, dictGet?_update _ _ hb, dictGet?_update _ _ (keysNodup_update hb c),
      dictGet?_update _ _ hc, Option.or_assoc]

example : ADC.extend (⟨.dict [("a", 1), ("b", 2)], true, false⟩ : ADC String Nat)
    ⟨.dict [("b", 3), ("c", 4)], true, false⟩
    = .ok ⟨.dict [("a", 1), ("b", 3), ("c", 4)], true, false⟩ := by decide

end Pyensys
