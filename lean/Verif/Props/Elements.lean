import Verif.Model.Elements
import Verif.Props.AttestOptions
import Verif.Props.Energy

/-!
# C172-C174: parameters of devices and networks
-/

namespace Pyensys

/-! ## dictionaries -/

theorem elReplace_lookup (d : List (String × ElVal)) (n k : String) (v : ElVal) : elLookup (elReplace d n v) k =
    if k = n then (if (elLookup d n).isSome then some v else none) else elLookup d k := by
  unfold elLookup elReplace
  induction d with
  | nil => simp
  | cons e t ih =>
    obtain ⟨a, w⟩ := e
    rw [List.map_cons]
    by_cases ha : a = n
    · subst ha
      simp only [if_true, List.lookup_cons]
      by_cases hk : k = a
      · subst hk; simp
      · have : (k == a) = false := by simpa using hk
        simp only [this, hk, if_false] at ih ⊢
        exact ih
    · simp only [ha, if_false, List.lookup_cons]
      by_cases hk : k = a
      · subst hk
        simp [ha]
      · have h1 : (k == a) = false := by simpa using hk
        have h2 : (n == a) = false := by simpa using fun h : n = a => ha h.symm
        simp only [h1, h2]
        exact ih

/-- the parameter `n` of object `obj` -/
def paramAt (h : ElHeap) (obj : Nat) (n : String) : Option ElVal := (h.objs[obj]?).bind (fun o => elLookup o.data n)

/-- what is written in `h'` is `h` but for parameter `n` of object `obj`, which is `v` -/
def OnlyParam (h h' : ElHeap) (obj : Nat) (n : String) (v : ElVal) : Prop :=
  paramAt h' obj n = some v ∧ (∀ obj' n', (obj', n') ≠ (obj, n) → paramAt h' obj' n' = paramAt h obj' n') ∧ h'.lists = h.lists ∧ h'.olists = h.olists ∧
  h'.objs.map (·.cls) = h.objs.map (·.cls)

theorem getElement_all (h : ElHeap) (obj : Nat) (n : String) (v : ElVal) (hv : paramAt h obj n = some v) : getElement h obj (some n) .all = .ok (v, h) := by
  unfold paramAt at hv
  rw [Option.bind_eq_some_iff] at hv
  obtain ⟨o, ho, hl⟩ := hv
  unfold getElement
  simp only [npGet_some ho, bind, Except.bind, hl]
  cases v <;> rfl

theorem setElement_known (h : ElHeap) (obj : Nat) (n : String) (old v : ElVal) (ho : paramAt h obj n = some old) :
    (elSameKind old v = true → ∃ h', setElement h obj (some n) v = .ok h' ∧ OnlyParam h h' obj n v) ∧
    (elSameKind old v = false → setElement h obj (some n) v = .error .assertion) := by
  unfold paramAt at ho
  rw [Option.bind_eq_some_iff] at ho
  obtain ⟨o, ho, hl⟩ := ho
  have hlt := (List.getElem?_eq_some_iff.1 ho).1
  unfold setElement
  simp only [npGet_some ho, bind, Except.bind, hl]
  refine ⟨fun hk => ?_, fun hk => by rw [if_neg (by simp [hk])]⟩
  rw [if_pos hk]
  refine ⟨_, rfl, ?_, ?_, rfl, rfl, ?_⟩
  · simp only [paramAt, List.getElem?_set_self hlt, Option.bind_some, elReplace_lookup, if_true, hl, Option.isSome_some]
  · intro obj' n' hne
    simp only [paramAt]
    by_cases e : obj' = obj
    · subst e
      rw [List.getElem?_set_self hlt, ho]
      simp only [Option.bind_some, elReplace_lookup]
      rw [if_neg (by rintro rfl; exact hne rfl)]
    · rw [List.getElem?_set_ne (fun h => e h.symm)]
  · apply List.ext_getElem?
    intro k
    rw [List.getElem?_map, List.getElem?_map]
    by_cases e : k = obj
    · subst e
      rw [List.getElem?_set_self hlt, ho]
      rfl
    · rw [List.getElem?_set_ne (fun h => e h.symm)]

/-- **C172**: setting a known parameter to a value of its kind (a list for a list, a single value for a single value) makes the device return it, and changes no other parameter of any device;
a value of the other kind raises AssertionError. -/
theorem C172_set_get_partial (h : ElHeap) (obj : Nat) (n : String) (old v : ElVal) (ho : paramAt h obj n = some old) :
    (elSameKind old v = true → ∃ h', setElement h obj (some n) v = .ok h' ∧ getElement h' obj (some n) .all = .ok (v, h') ∧
      ∀ obj' n' w, (obj', n') ≠ (obj, n) → paramAt h obj' n' = some w → getElement h' obj' (some n') .all = .ok (w, h')) ∧
    (elSameKind old v = false → setElement h obj (some n) v = .error .assertion) := by
  obtain ⟨h1, h2⟩ := setElement_known h obj n old v ho
  refine ⟨fun hk => ?_, h2⟩
  obtain ⟨h', h3, h4, h5, _⟩ := h1 hk
  refine ⟨h', h3, getElement_all _ _ _ _ h4, fun obj' n' w hne hw => getElement_all _ _ _ _ ?_⟩
  rw [h5 obj' n' hne, hw]

/-- calls of `set_element`, one after the other; a call that raises changes nothing -/
def runSets (h : ElHeap) : List (Nat × Option String × ElVal) → ElHeap
  | [] => h
  | c :: t => runSets (match setElement h c.1 c.2.1 c.2.2 with | .ok h' => h' | .error _ => h) t

theorem setElement_kinds (h h' : ElHeap) (obj : Nat) (name : Option String) (v : ElVal) (hs : setElement h obj name v = .ok h') (obj' : Nat) (n : String) :
    (paramAt h' obj' n).isSome = (paramAt h obj' n).isSome ∧ ∀ a b, paramAt h obj' n = some a → paramAt h' obj' n = some b → elSameKind a b = true := by
  have refl : ∀ a : ElVal, elSameKind a a = true := by intro a; cases a <;> rfl
  cases name with
  | none => simp [setElement] at hs
  | some m =>
    cases hp : paramAt h obj m with
    | none =>
      have : h' = h := by
        unfold setElement at hs
        unfold paramAt at hp
        cases ho : h.objs[obj]? with
        | none => simp [npGet, ho, bind, Except.bind] at hs
        | some o =>
          rw [ho] at hp
          simp only [Option.bind_some] at hp
          simp only [npGet_some ho, bind, Except.bind, hp, Except.ok.injEq] at hs
          exact hs.symm
      subst this
      refine ⟨rfl, fun a b ha hb => ?_⟩
      rw [ha, Option.some.injEq] at hb
      subst hb
      exact refl a
    | some old =>
      obtain ⟨h1, h2⟩ := setElement_known h obj m old v hp
      cases hk : elSameKind old v with
      | false => rw [h2 hk] at hs; cases hs
      | true =>
        obtain ⟨h'', h3, h4, h5, _⟩ := h1 hk
        rw [hs, Except.ok.injEq] at h3
        subst h3
        by_cases he : (obj', n) = (obj, m)
        · rw [Prod.mk.injEq] at he
          obtain ⟨rfl, rfl⟩ := he
          rw [h4, hp]
          refine ⟨rfl, fun a b ha hb => ?_⟩
          rw [Option.some.injEq] at ha hb
          subst ha; subst hb
          exact hk
        · rw [h5 obj' n he]
          refine ⟨rfl, fun a b ha hb => ?_⟩
          rw [ha, Option.some.injEq] at hb
          subst hb
          exact refl a

theorem sameKind_trans {a b c : ElVal} (h1 : elSameKind a b = true) (h2 : elSameKind b c = true) : elSameKind a c = true := by
  cases a <;> cases b <;> cases c <;> simp_all [elSameKind]

/-- Whatever is set, in any order, on any devices: no parameter appears or disappears, and a list stays a list, a single value a single value. -/
theorem C172_history_partial (calls : List (Nat × Option String × ElVal)) (h : ElHeap) (obj : Nat) (n : String) :
    (paramAt (runSets h calls) obj n).isSome = (paramAt h obj n).isSome ∧
    ∀ a b, paramAt h obj n = some a → paramAt (runSets h calls) obj n = some b → elSameKind a b = true := by
  induction calls generalizing h with
  | nil =>
    refine ⟨rfl, fun a b ha hb => ?_⟩
    rw [show runSets h [] = h from rfl, ha, Option.some.injEq] at hb
    subst hb
    cases a <;> rfl
  | cons c t ih =>
    unfold runSets
    cases hs : setElement h c.1 c.2.1 c.2.2 with
    | error e => exact ih h
    | ok h' =>
      obtain ⟨i1, i2⟩ := ih h'
      obtain ⟨k1, k2⟩ := setElement_kinds h h' _ _ _ hs obj n
      refine ⟨i1.trans k1, fun a b ha hb => ?_⟩
      have : (paramAt h' obj n).isSome = true := by rw [k1, ha]; rfl
      obtain ⟨m, hm⟩ := Option.isSome_iff_exists.1 this
      exact sameKind_trans (k2 a m ha hm) (i2 m b hm hb)

/-- **C172 fails** for a name that the device does not have: setting it succeeds and does nothing, reading it gives `None` as if it were not set. -/
theorem C172_unknown_violated (h : ElHeap) (obj : Nat) (n : String) (v : ElVal) (pos : ElPos) (hobj : obj < h.objs.length) (hn : paramAt h obj n = none) :
    setElement h obj (some n) v = .ok h ∧ getElement h obj (some n) pos = .ok (.atom .none, h) := by
  unfold paramAt at hn
  have ho : h.objs[obj]? = some h.objs[obj] := List.getElem?_eq_getElem hobj
  rw [ho, Option.bind_some] at hn
  unfold setElement getElement
  simp only [npGet_some ho, bind, Except.bind, hn, and_self]

/-- a new device has all parameters of its class: single values are `None`, lists are empty and belong to no other parameter or device -/
theorem C172_new_partial (h : ElHeap) (cls : String) (atoms lists : List String) (hd : (atoms ++ lists).Nodup) :
    let r := elNew h cls atoms lists
    r.1 = h.objs.length ∧ (∀ obj n, obj < h.objs.length → paramAt r.2 obj n = paramAt h obj n) ∧
    (∀ a ∈ atoms, paramAt r.2 r.1 a = some (.atom .none)) ∧
    (∀ (j : Nat) (a : String), lists[j]? = some a → paramAt r.2 r.1 a = some (.ref (h.lists.length + j)) ∧ r.2.lists[h.lists.length + j]? = some []) ∧
    ∀ n, n ∉ atoms ++ lists → paramAt r.2 r.1 n = none := by
  simp only
  have hr : ∀ n, paramAt (elNew h cls atoms lists).2 h.objs.length n = elLookup (atoms.map (fun a => (a, ElVal.atom .none)) ++ lists.zipIdx.map (fun q => (q.1, .ref (h.lists.length + q.2)))) n := by
    intro n
    unfold paramAt elNew
    simp only
    rw [List.getElem?_concat_length]
    rfl
  have l1 : ∀ (l : List String) (n : String), (l.map (fun a => (a, ElVal.atom .none))).lookup n = if n ∈ l then some (.atom .none) else none := by
    intro l n
    induction l with
    | nil => rfl
    | cons a t ih =>
      rw [List.map_cons, List.lookup_cons]
      by_cases hk : n = a
      · subst hk; simp
      · have : (n == a) = false := by simpa using hk
        simp only [this, ih, List.mem_cons, hk, false_or]
  have l2 : ∀ (l : List String) (m : Nat) (n : String), n ∉ l → ((l.zipIdx m).map (fun q => (q.1, ElVal.ref (h.lists.length + q.2)))).lookup n = none := by
    intro l
    induction l with
    | nil => intro m n _; rfl
    | cons a t ih =>
      intro m n hn
      rw [List.mem_cons, not_or] at hn
      rw [List.zipIdx_cons, List.map_cons, List.lookup_cons]
      have : (n == a) = false := by simpa using hn.1
      simp only [this]
      exact ih (m + 1) n hn.2
  have l3 : ∀ (l : List String) (m j : Nat) (n : String), l.Nodup → l[j]? = some n → ((l.zipIdx m).map (fun q => (q.1, ElVal.ref (h.lists.length + q.2)))).lookup n = some (.ref (h.lists.length + (m + j))) := by
    intro l
    induction l with
    | nil => intro m j n _ hj; simp at hj
    | cons a t ih =>
      intro m j n hnd hj
      rw [List.nodup_cons] at hnd
      rw [List.zipIdx_cons, List.map_cons, List.lookup_cons]
      cases j with
      | zero =>
        simp only [List.getElem?_cons_zero, Option.some.injEq] at hj
        subst hj
        simp
      | succ j =>
        rw [List.getElem?_cons_succ] at hj
        have hne : n ≠ a := by
          rintro rfl
          exact hnd.1 (List.mem_of_getElem? hj)
        have : (n == a) = false := by simpa using hne
        simp only [this]
        rw [ih (m + 1) j n hnd.2 hj]
        congr 2
        omega
  rw [List.nodup_append] at hd
  obtain ⟨d1, d2, d3⟩ := hd
  refine ⟨rfl, ?_, ?_, ?_, ?_⟩
  · intro obj n ho
    unfold paramAt elNew
    simp only
    rw [List.getElem?_append_left ho]
  · intro a ha
    show paramAt _ h.objs.length a = _
    rw [hr]
    unfold elLookup
    rw [List.lookup_append, l1, if_pos ha]
    rfl
  · intro j a ha
    show paramAt _ h.objs.length a = _ ∧ _
    rw [hr]
    unfold elLookup
    have hna : a ∉ atoms := fun hin => d3 a hin a (List.mem_of_getElem? ha) rfl
    rw [List.lookup_append, l1, if_neg hna]
    refine ⟨?_, ?_⟩
    · have := l3 lists 0 j a d2 ha
      rw [Nat.zero_add] at this
      exact this
    · unfold elNew
      simp only
      rw [List.getElem?_append_right (by omega), Nat.add_sub_cancel_left, List.getElem?_map, ha]
      rfl
  · intro n hn
    rw [List.mem_append, not_or] at hn
    show paramAt _ h.objs.length n = _
    rw [hr]
    unfold elLookup
    rw [List.lookup_append, l1, if_neg hn.1, l2 lists 0 n hn.2]
    rfl

def exHeap : ElHeap := ⟨[[.num 1, .num 2, .num 3], []], [⟨"Bus", [("number", .atom (.num 7)), ("contingency_n-1", .ref 0)]⟩], []⟩

theorem C172_witness : paramAt exHeap 0 "number" = some (.atom (.num 7)) ∧ paramAt exHeap 0 "contingency_n-1" = some (.ref 0) ∧ paramAt exHeap 0 "numbr" = none ∧
    (setElement exHeap 0 (some "number") (.atom (.num 8))).toOption.map (fun h => paramAt h 0 "number") = some (some (.atom (.num 8))) := by decide +kernel

/-! ## C173 -/

/-- **C173**, reading of positions: of a list parameter, a position gives the element (counted from the end if negative), a list of positions a new list of the elements, ':' the list; for a
single value the positions are ignored; the number of elements is the length. -/
theorem C173_positions_partial (h : ElHeap) (obj : Nat) (n : String) (v : ElVal) (hv : paramAt h obj n = some v) :
    (∀ a pos, v = .atom a → getElement h obj (some n) pos = .ok (.atom a, h) ∧ getNoElements h obj (some n) = .ok none) ∧
    (∀ r l, v = .ref r → h.lists[r]? = some l → getNoElements h obj (some n) = .ok (some l.length) ∧
      (∀ (i : Nat) (a : ElAtom), l[i]? = some a → getElement h obj (some n) (.one i) = .ok (.atom a, h) ∧
        getElement h obj (some n) (.one ((i : Int) - l.length)) = .ok (.atom a, h)) ∧
      (∀ (is : List Nat) (q : List ElAtom), q.length = is.length → (∀ (k i : Nat), is[k]? = some i → q[k]? = l[i]?) → (∀ i ∈ is, i < l.length) →
        ∃ h' r', getElement h obj (some n) (.some (is.map (fun (i : Nat) => (i : Int)))) = .ok (.ref r', h') ∧ h'.lists[r']? = some q ∧ h.lists[r']? = none ∧
          (∀ k, k < h.lists.length → h'.lists[k]? = h.lists[k]?) ∧ h'.objs = h.objs)) := by
  unfold paramAt at hv
  rw [Option.bind_eq_some_iff] at hv
  obtain ⟨o, ho, hl⟩ := hv
  refine ⟨?_, ?_⟩
  · rintro a pos rfl
    unfold getElement getNoElements
    simp only [npGet_some ho, bind, Except.bind, hl, and_self]
  · rintro r l rfl hr
    refine ⟨?_, ?_, ?_⟩
    · unfold getNoElements
      simp only [npGet_some ho, bind, Except.bind, hl, npGet_some hr]
    · intro i a ha
      have hi := (List.getElem?_eq_some_iff.1 ha).1
      refine ⟨?_, ?_⟩
      · unfold getElement
        simp only [npGet_some ho, bind, Except.bind, hl, npGet_some hr, (pyGet_nat_iff l i a).2 ha]
      · have : pyGet l ((i : Int) - l.length) = .ok a := by
          unfold pyGet
          have h1 : (i : Int) - l.length < 0 := by omega
          simp only [if_pos h1]
          have h2 : (i : Int) - l.length + l.length = i := by omega
          rw [h2, if_neg (by omega), Int.toNat_natCast, ha]
        unfold getElement
        simp only [npGet_some ho, bind, Except.bind, hl, npGet_some hr, this]
    · intro is q hq hk hlt
      have hm : (is.map (fun (i : Nat) => (i : Int))).mapM (fun i => pyGet l i) = .ok q := by
        rw [mapM_ok_iff, List.forall₂_map_left_iff]
        refine List.forall₂_iff_get.2 ⟨hq.symm, fun k h1 h2 => ?_⟩
        rw [pyGet_nat_iff]
        have := hk k is[k] (List.getElem?_eq_getElem h1)
        rw [List.getElem?_eq_getElem h2] at this
        exact this.symm
      refine ⟨⟨h.lists ++ [q], h.objs, h.olists⟩, h.lists.length, ?_, ?_, by simp, ?_, ?_⟩
      · unfold getElement
        simp only [npGet_some ho, bind, Except.bind, hl, npGet_some hr, hm]
      · exact List.getElem?_concat_length
      · intro k hk
        exact List.getElem?_append_left hk
      · rfl

/-- **C173 fails** for ':': what is returned is the list of the device, not a copy: if the caller changes it, the device has changed. -/
theorem C173_live_violated (h : ElHeap) (obj : Nat) (n : String) (r : Nat) (l l' : List ElAtom) (hv : paramAt h obj n = some (.ref r)) (hr : h.lists[r]? = some l) :
    getElement h obj (some n) .all = .ok (.ref r, h) ∧ getNoElements (elChange h r l') obj (some n) = .ok (some l'.length) ∧
    ∀ (i : Nat) (a : ElAtom), l'[i]? = some a → getElement (elChange h r l') obj (some n) (.one i) = .ok (.atom a, elChange h r l') := by
  have h1 : paramAt (elChange h r l') obj n = some (.ref r) := hv
  have h2 : (elChange h r l').lists[r]? = some l' := List.getElem?_set_self (List.getElem?_eq_some_iff.1 hr).1
  obtain ⟨_, h3⟩ := C173_positions_partial _ _ _ _ h1
  obtain ⟨h4, h5, _⟩ := h3 r l' rfl h2
  exact ⟨getElement_all _ _ _ _ hv, h4, fun i a ha => (h5 i a ha).1⟩

theorem C173_witness : (getElement exHeap 0 (some "contingency_n-1") (.some [2, 0])).toOption = some (.ref 2, ⟨[[.num 1, .num 2, .num 3], [], [.num 3, .num 1]], exHeap.objs, []⟩) ∧
    (getElement (elChange exHeap 0 [.num 9]) 0 (some "contingency_n-1") (.one 0)).toOption.map (·.1) = some (.atom (.num 9)) := by decide +kernel

/-! ## C174 -/

theorem map_lookup (d : List (String × Nat)) (k k' : String) (l : Nat) : (d.map (fun e => if e.1 = k then (e.1, l) else e)).lookup k' =
    if k' = k then (if (d.lookup k).isSome then some l else none) else d.lookup k' := by
  induction d with
  | nil => simp
  | cons e t ih =>
    obtain ⟨a, w⟩ := e
    rw [List.map_cons]
    by_cases ha : a = k
    · subst ha
      simp only [if_true, List.lookup_cons]
      by_cases hk : k' = a
      · subst hk; simp
      · have : (k' == a) = false := by simpa using hk
        simp only [this, hk, if_false] at ih ⊢
        exact ih
    · simp only [ha, if_false, List.lookup_cons]
      by_cases hk : k' = a
      · subst hk
        simp [ha]
      · have h1 : (k' == a) = false := by simpa using hk
        have h2 : (k == a) = false := by simpa using fun h : k = a => ha h.symm
        simp only [h1, h2]
        exact ih

theorem setObjects_ok (h : ElHeap) (n n' : ElNet) (k : String) (l : Option Nat) (hs : setObjects h n (some k) l = .ok n') : ∃ a, l = some a ∧ n'.self = n.self ∧
    ((n.objects.lookup k = none ∧ n' = n) ∨ ((n.objects.lookup k).isSome ∧ n'.objects = n.objects.map (fun e => if e.1 = k then (e.1, a) else e))) := by
  cases l with
  | none => simp [setObjects] at hs
  | some a =>
    refine ⟨a, rfl, ?_⟩
    unfold setObjects at hs
    simp only at hs
    cases hl : n.objects.lookup k with
    | none =>
      rw [hl] at hs
      simp only [Except.ok.injEq] at hs
      subst hs
      exact ⟨rfl, .inl ⟨rfl, rfl⟩⟩
    | some old =>
      rw [hl] at hs
      simp only [except_bind_ok] at hs
      obtain ⟨_, _, _, _, _, _, _, _, _, _, _, _, hs⟩ := hs
      split at hs
      · rw [Except.ok.injEq] at hs
        subst hs
        exact ⟨rfl, .inr ⟨rfl, rfl⟩⟩
      · cases hs

theorem copyObjects_loop (h : ElHeap) (ob : ElNet) (ks : List String) (n n' : ElNet) (hs : ks.foldlM (copyObjects h ob) n = .ok n') : n'.self = n.self ∧
    (∀ k, (n'.objects.lookup k).isSome = (n.objects.lookup k).isSome) ∧ (∀ k, k ∉ ks → n'.objects.lookup k = n.objects.lookup k) ∧
    ∀ k, k ∈ ks → (n.objects.lookup k).isSome → n'.objects.lookup k = ob.objects.lookup k := by
  induction ks generalizing n with
  | nil =>
    simp only [List.foldlM_nil, pure, Except.pure, Except.ok.injEq] at hs
    subst hs
    exact ⟨rfl, fun _ => rfl, fun _ _ => rfl, fun k hk => by simp at hk⟩
  | cons k0 t ih =>
    rw [List.foldlM_cons, except_bind_ok] at hs
    obtain ⟨m, h1, h2⟩ := hs
    obtain ⟨a, ha, hself, hc⟩ := setObjects_ok h n m k0 _ h1
    obtain ⟨i1, i2, i3, i4⟩ := ih m h2
    have hm : ∀ k, m.objects.lookup k = if k = k0 ∧ (n.objects.lookup k0).isSome then some a else n.objects.lookup k := by
      intro k
      rcases hc with ⟨c1, rfl⟩ | ⟨c1, c2⟩
      · rw [c1]; simp
      · rw [c2, map_lookup]
        by_cases hk : k = k0
        · simp [hk, c1]
        · simp [hk]
    have hsome : ∀ k, (m.objects.lookup k).isSome = (n.objects.lookup k).isSome := by
      intro k
      rw [hm k]
      split
      · rename_i hh
        rw [hh.1, hh.2]; rfl
      · rfl
    refine ⟨i1.trans hself, fun k => (i2 k).trans (hsome k), ?_, ?_⟩
    · intro k hk
      rw [List.mem_cons, not_or] at hk
      rw [i3 k hk.2, hm k, if_neg (by tauto)]
    · intro k hk hkn
      by_cases hkt : k ∈ t
      · exact i4 k hkt (by rw [hsome k]; exact hkn)
      · have : k = k0 := by
          rcases List.mem_cons.1 hk with h | h
          · exact h
          · exact absurd h hkt
        subst this
        rw [i3 k hkt, hm k, if_pos ⟨rfl, hkn⟩, ha]

theorem lookup_isSome_iff (d : List (String × Nat)) (k : String) : (d.lookup k).isSome = true ↔ k ∈ d.map (fun e => e.1) := by
  induction d with
  | nil => simp
  | cons e t ih =>
    obtain ⟨a, w⟩ := e
    rw [List.lookup_cons]
    by_cases hk : k = a
    · subst hk; simp
    · have : (k == a) = false := by simpa using hk
      simp only [this, ih, List.map_cons, List.mem_cons, hk, false_or]

/-- the same names in both networks -/
def SameNames (n ob : ElNet) : Prop := ∀ k, (n.objects.lookup k).isSome = (ob.objects.lookup k).isSome

theorem setNetworkData_lists (h h' : ElHeap) (n n' ob : ElNet) (hn : SameNames n ob) (hs : setNetworkData h n ob = .ok (n', h')) :
    n'.self = n.self ∧ ∀ k, n'.objects.lookup k = ob.objects.lookup k := by
  unfold setNetworkData at hs
  simp only [except_bind_ok, Except.ok.injEq, Prod.mk.injEq] at hs
  obtain ⟨m, h1, h2, _, rfl, rfl⟩ := hs
  obtain ⟨i1, i2, i3, i4⟩ := copyObjects_loop h ob _ n m h1
  refine ⟨i1, fun k => ?_⟩
  by_cases hk : k ∈ n.objects.map (fun e => e.1)
  · exact i4 k hk ((lookup_isSome_iff _ _).2 hk)
  · have h5 : (n.objects.lookup k).isSome = false := by
      rw [Bool.eq_false_iff]
      exact fun h => hk ((lookup_isSome_iff _ _).1 h)
    have h6 := hn k
    rw [h5] at h6
    have h7 := i2 k
    rw [h5] at h7
    have h8 : ob.objects.lookup k = none := by rw [← Option.not_isSome_iff_eq_none, ← h6]; simp
    have h9 : m.objects.lookup k = none := by rw [← Option.not_isSome_iff_eq_none, h7]; simp
    rw [h8, h9]

theorem copyParam_ok (self ob : Nat) (h h' : ElHeap) (k : String) (hne : self ≠ ob) (hs : copyParam self ob h k = .ok h') :
    (∀ n, paramAt h' ob n = paramAt h ob n) ∧ (∀ n, n ≠ k → paramAt h' self n = paramAt h self n) ∧
    ∀ v, (paramAt h self k).isSome → paramAt h ob k = some v → paramAt h' self k = some v := by
  unfold copyParam at hs
  rw [except_bind_ok] at hs
  obtain ⟨⟨w, g⟩, h1, h2⟩ := hs
  have hg : g = h := by
    unfold getElement at h1
    simp only [except_bind_ok] at h1
    obtain ⟨o, ho, h1⟩ := h1
    revert h1
    cases elLookup o.data k with
    | none => intro h1; simp only [Except.ok.injEq, Prod.mk.injEq] at h1; exact h1.2.symm
    | some v =>
      cases v with
      | atom a => intro h1; simp only [Except.ok.injEq, Prod.mk.injEq] at h1; exact h1.2.symm
      | ref r => intro h1; simp only [Except.ok.injEq, Prod.mk.injEq] at h1; exact h1.2.symm
  simp only at h2
  rw [hg] at h2
  cases hp : paramAt h self k with
  | none =>
    have : h' = h := by
      unfold setElement at h2
      rw [except_bind_ok] at h2
      obtain ⟨o, ho, h2⟩ := h2
      unfold paramAt at hp
      rw [npGet_iff.1 ho, Option.bind_some] at hp
      rw [hp] at h2
      simp only [Except.ok.injEq] at h2
      exact h2.symm
    subst this
    exact ⟨fun _ => rfl, fun _ _ => rfl, fun v h => by simp at h⟩
  | some old =>
    obtain ⟨c1, c2⟩ := setElement_known h self k old w hp
    cases hk : elSameKind old w with
    | false => rw [c2 hk] at h2; cases h2
    | true =>
      obtain ⟨h'', c3, c4, c5, _⟩ := c1 hk
      rw [h2, Except.ok.injEq] at c3
      subst c3
      refine ⟨fun n => c5 ob n (fun e => hne (by rw [Prod.mk.injEq] at e; exact e.1.symm)), fun n hn => c5 self n (fun e => hn (by rw [Prod.mk.injEq] at e; exact e.2)), ?_⟩
      intro v _ hv
      have := getElement_all h ob k v hv
      rw [h1, Except.ok.injEq, Prod.mk.injEq] at this
      rw [c4, this.1]

theorem copyParams_loop (self ob : Nat) (hne : self ≠ ob) (ks : List String) (hd : ks.Nodup) (h h' : ElHeap) (hs : ks.foldlM (copyParam self ob) h = .ok h') :
    (∀ n, paramAt h' ob n = paramAt h ob n) ∧ (∀ n, n ∉ ks → paramAt h' self n = paramAt h self n) ∧
    ∀ k v, k ∈ ks → (paramAt h self k).isSome → paramAt h ob k = some v → paramAt h' self k = some v := by
  induction ks generalizing h with
  | nil =>
    simp only [List.foldlM_nil, pure, Except.pure, Except.ok.injEq] at hs
    subst hs
    exact ⟨fun _ => rfl, fun _ _ => rfl, fun k v hk => by simp at hk⟩
  | cons k0 t ih =>
    rw [List.nodup_cons] at hd
    rw [List.foldlM_cons, except_bind_ok] at hs
    obtain ⟨m, h1, h2⟩ := hs
    obtain ⟨c1, c2, c3⟩ := copyParam_ok self ob h m k0 hne h1
    obtain ⟨i1, i2, i3⟩ := ih hd.2 m h2
    refine ⟨fun n => (i1 n).trans (c1 n), ?_, ?_⟩
    · intro n hn
      rw [List.mem_cons, not_or] at hn
      rw [i2 n hn.2, c2 n hn.1]
    · intro k v hk hsome hv
      by_cases hk0 : k = k0
      · subst hk0
        rw [i2 k hd.1]
        exact c3 v hsome hv
      · have hkt : k ∈ t := by
          rcases List.mem_cons.1 hk with h | h
          · exact absurd h hk0
          · exact h
        refine i3 k v hkt ?_ ?_
        · rw [c2 k hk0]; exact hsome
        · rw [c1 k]; exact hv

/-- **C174**: after `set_electricity_network_data` the network returns, for every name, object and parameter, what the other network returns, and has its parameters. -/
theorem C174_transfer_partial (h h' : ElHeap) (n n' ob : ElNet) (hn : SameNames n ob) (hne : n.self ≠ ob.self) (hs : setNetworkData h n ob = .ok (n', h')) :
    (∀ name elem pe pos, getObjectElements h' n' name elem pe pos = getObjectElements h' ob name elem pe pos) ∧
    ∀ k v, k ∈ elParams → (paramAt h n.self k).isSome → paramAt h ob.self k = some v → paramAt h' n'.self k = some v ∧ paramAt h' ob.self k = some v := by
  obtain ⟨h1, h2⟩ := setNetworkData_lists h h' n n' ob hn hs
  refine ⟨?_, ?_⟩
  · intro name elem pe pos
    unfold getObjectElements getObject
    simp only [h2]
  · intro k v hk hsome hv
    unfold setNetworkData at hs
    simp only [except_bind_ok, Except.ok.injEq, Prod.mk.injEq] at hs
    obtain ⟨m, _, g, h4, rfl, rfl⟩ := hs
    obtain ⟨i1, _, i3⟩ := copyParams_loop n.self ob.self hne elParams (by decide) h g h4
    rw [h1]
    exact ⟨i3 k v hk hsome hv, by rw [i1]; exact hv⟩

/-- **C174 fails**: the networks are not independent: whatever is done later - in any heap - the two return the same, so that a change of one is a change of the other. -/
theorem C174_shared_violated (h h' : ElHeap) (n n' ob : ElNet) (hn : SameNames n ob) (hs : setNetworkData h n ob = .ok (n', h')) (h2 : ElHeap) :
    (∀ name elem pe pos, getObjectElements h2 n' name elem pe pos = getObjectElements h2 ob name elem pe pos) ∧
    ∀ name elem v pos, setObjectElements h2 n' name elem v pos = setObjectElements h2 ob name elem v pos := by
  obtain ⟨_, hl⟩ := setNetworkData_lists h h' n n' ob hn hs
  refine ⟨?_, ?_⟩ <;> intros <;> simp only [getObjectElements, setObjectElements, getObject, hl]

theorem setObjects_nonempty (h : ElHeap) (n n' : ElNet) (k : String) (a b : Nat) (hb : n.objects.lookup k = some b) (hs : setObjects h n (some k) (some a) = .ok n') :
    h.olists[a]? ≠ some [] ∧ h.olists[b]? ≠ some [] := by
  unfold setObjects at hs
  simp only [hb, except_bind_ok] at hs
  obtain ⟨new, h1, first, h2, o, h3, olds, h4, old, h5, _⟩ := hs
  rw [npGet_iff] at h1 h2 h4 h5
  refine ⟨fun e => ?_, fun e => ?_⟩
  · rw [h1, Option.some.injEq] at e
    subst e
    simp at h2
  · rw [h4, Option.some.injEq] at e
    subst e
    simp at h5

/-- **C174 fails** for networks without devices of a kind: if the list of some kind is empty in either network - `nores=0`, say - the data are not transferred. -/
theorem C174_empty_violated (h : ElHeap) (n ob : ElNet) (hd : (n.objects.map (fun e => e.1)).Nodup) (k : String) (a b : Nat) (hb : n.objects.lookup k = some b) (ha : ob.objects.lookup k = some a)
    (he : h.olists[a]? = some [] ∨ h.olists[b]? = some []) : ∀ r, setNetworkData h n ob ≠ .ok r := by
  rintro ⟨n', h'⟩ hs
  unfold setNetworkData at hs
  simp only [except_bind_ok, Except.ok.injEq, Prod.mk.injEq] at hs
  obtain ⟨m, h1, _⟩ := hs
  have hk : k ∈ n.objects.map (fun e => e.1) := (lookup_isSome_iff _ _).1 (by rw [hb]; rfl)
  obtain ⟨s, t, hst⟩ := List.append_of_mem hk
  rw [hst] at h1 hd
  rw [List.foldlM_append, except_bind_ok] at h1
  obtain ⟨m1, h2, h3⟩ := h1
  rw [List.foldlM_cons, except_bind_ok] at h3
  obtain ⟨m2, h4, _⟩ := h3
  have hks : k ∉ s := by
    rw [List.nodup_append] at hd
    exact fun hm => hd.2.2 k hm k (List.mem_cons_self) rfl
  obtain ⟨_, _, i3, _⟩ := copyObjects_loop h ob s n m1 h2
  have h5 : m1.objects.lookup k = some b := by rw [i3 k hks, hb]
  unfold copyObjects at h4
  rw [ha] at h4
  obtain ⟨c1, c2⟩ := setObjects_nonempty h m1 m2 k a b h5 h4
  rcases he with e | e
  · exact c1 e
  · exact c2 e

def exBus (n : Rat) : ElObj := ⟨"Bus", [("number", .atom (.num n)), ("position", .atom .none)]⟩
def exNetHeap : ElHeap := ⟨[[], [.num 4]], [⟨"ElectricityNetwork", [("baseMVA", .atom .none), ("Security", .ref 0)]⟩, ⟨"ElectricityNetwork", [("baseMVA", .atom (.num 100)), ("Security", .ref 1)]⟩, exBus 1, exBus 2],
  [[2], [3]]⟩
def exNetA : ElNet := ⟨0, [("bus", 0)]⟩
def exNetB : ElNet := ⟨1, [("bus", 1)]⟩

/-- bus 2 of network B is renamed, and network A, which was given the data of B before, has the new number -/
theorem C174_witness : SameNames exNetA exNetB ∧ (setNetworkData exNetHeap exNetA exNetB).toOption.map (fun r => (r.1, paramAt r.2 0 "baseMVA", paramAt r.2 0 "Security",
      (setObjectElements r.2 exNetB (some "bus") (some "number") (.atom (.num 9)) (some 0)).toOption.map (fun g =>
        (getObjectElements g r.1 (some "bus") (some "number") .all (some 0)).toOption.map (·.1)))) =
    some (⟨0, [("bus", 1)]⟩, some (.atom (.num 100)), some (.ref 1), some (some (.atom (.num 9)))) := by
  refine ⟨?_, by decide +kernel⟩
  intro k
  simp only [exNetA, exNetB, List.lookup_cons, List.lookup_nil]
  cases k == "bus" <;> rfl

/-- network A has no buses: nothing is transferred -/
theorem C174_empty_witness : (setNetworkData ⟨exNetHeap.lists, exNetHeap.objs, [[], [3]]⟩ exNetA exNetB) = .error .index ∧
    (setNetworkData ⟨exNetHeap.lists, exNetHeap.objs, [[2], []]⟩ exNetA exNetB) = .error .index := ⟨rfl, rfl⟩

/-- **C172.** What may replace what: a single value (a number, a text, `None`) a single value, a list a list. -/
theorem C172_kinds_partial (old v : ElVal) : elSameKind old v = true ↔ (∃ a b, old = .atom a ∧ v = .atom b) ∨ (∃ r s, old = .ref r ∧ v = .ref s) := by
  cases old <;> cases v <;> simp [elSameKind]

/-- **C172**, through a network: `set_object_elements` of the object at a position is seen by `get_object_elements` at the same position, and every other object keeps its parameters. -/
theorem C172_objects_partial (h : ElHeap) (n : ElNet) (k elem : String) (l : Nat) (os : List Nat) (i : Nat) (o : Nat) (old v : ElVal) (hk : n.objects.lookup k = some l) (hl : h.olists[l]? = some os)
    (hi : os[i]? = some o) (ho : paramAt h o elem = some old) (hs : elSameKind old v = true) :
    ∃ h', setObjectElements h n (some k) (some elem) v (some (i : Int)) = .ok h' ∧ getObjectElements h' n (some k) (some elem) .all (some (i : Int)) = .ok (v, h') ∧
      ∀ (j o' : Nat) (e' : String) (w : ElVal), os[j]? = some o' → (o', e') ≠ (o, elem) → paramAt h o' e' = some w →
        getObjectElements h' n (some k) (some e') .all (some (j : Int)) = .ok (w, h') := by
  obtain ⟨h', h1, h2, h3⟩ := (C172_set_get_partial h o elem old v ho).1 hs
  have hol : h'.olists = h.olists := by
    unfold setElement at h1
    simp only [except_bind_ok] at h1
    obtain ⟨ob, _, h1⟩ := h1
    split at h1
    · injection h1 with h1; rw [← h1]
    · split at h1
      · injection h1 with h1; rw [← h1]
      · exact absurd h1 (by simp)
  have hget : ∀ g : ElHeap, g.olists = h.olists → ∀ (j o' : Nat), os[j]? = some o' → getObject g n k (j : Int) = .ok (some o') := by
    intro g hg j o' hj
    unfold getObject
    rw [hk]
    dsimp only
    rw [npGet_some (by rw [hg]; exact hl)]
    simp only [bind, Except.bind]
    rw [(pyGet_nat_iff os j o').mpr hj]
  refine ⟨h', ?_, ?_, ?_⟩
  · unfold setObjectElements
    dsimp only
    rw [hget h rfl i o hi]
    exact h1
  · unfold getObjectElements
    dsimp only
    rw [hget h' hol i o hi]
    exact h2
  · intro j o' e' w hj hne hw
    unfold getObjectElements
    dsimp only
    rw [hget h' hol j o' hj]
    exact h3 o' e' w hne hw

end Pyensys
