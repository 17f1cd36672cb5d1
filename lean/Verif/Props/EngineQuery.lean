import Verif.Model.EngineQuery
import Mathlib.Data.List.Nodup
import Mathlib.Data.List.Forall2

/-!
# C244, C245: reading and setting values of the optimisation model
-/

namespace Pyensys

/-! ## specification -/

/-- `l` are the parameters, or the variables, of the element -/
def QvList (kind : QvKind) (n : QvNode) (l : List QvItem) : Prop :=
  (kind = .parameter ∧ n.params = some l) ∨ (kind = .variable' ∧ n.vars = some l)

/-- the model holds, for the element `id`, the value `v` of the parameter or variable `name` at the hour `h` (`none`: it does not change in time) -/
def QvHolds (ns : List QvNode) (kind : QvKind) (id name : Tok) (h : Option Int) (v : Option Rat) : Prop :=
  ∃ n ∈ ns, n.id = id ∧ ∃ l, QvList kind n l ∧ (⟨name, h, v⟩ : QvItem) ∈ l

/-- elements have different identifiers and both their lists, and a name has one value at an hour and either a value for every hour or one that does not change -/
structure QvProper (ns : List QvNode) : Prop where
  ids : (ns.map QvNode.id).Nodup
  params : ∀ n ∈ ns, n.params ≠ none
  vars' : ∀ n ∈ ns, n.vars ≠ none
  once : ∀ n ∈ ns, ∀ kind l, QvList kind n l → ∀ p ∈ l, ∀ q ∈ l, p.name = q.name → p.hour = q.hour → p = q
  constant : ∀ n ∈ ns, ∀ kind l, QvList kind n l → ∀ p ∈ l, ∀ q ∈ l, p.name = q.name → p.hour = none → q.hour = none

/-- the answer to a request: the value that is held, if one is held, and None otherwise -/
def QvAnswer (ns : List QvNode) (kind : QvKind) (id name : Tok) (h : Option Int) (r : Option Rat) : Prop :=
  (∀ v, QvHolds ns kind id name h v → r = v) ∧ ((∀ v, ¬ QvHolds ns kind id name h v) → r = none)

/-! ## proofs -/

theorem qvField_iff {kind : QvKind} {n : QvNode} {l : List QvItem} : qvField kind n = some (some l) ↔ QvList kind n l := by
  cases kind <;> simp [qvField, QvList]

theorem qvField_some {kind : QvKind} {n : QvNode} (hp : n.params ≠ none) (hv : n.vars ≠ none) : qvField kind n ≠ some none := by
  cases kind <;> simp [qvField, hp, hv]

theorem qvNode_other {id name : Tok} {h : Option Int} {kind : QvKind} {n : QvNode} (hid : n.id ≠ id) : qvNode id name h kind n = .ok none := by
  simp [qvNode, hid]

theorem qvLoop_none {id name : Tok} {h : Option Int} {kind : QvKind} :
    ∀ {ns : List QvNode}, (∀ n ∈ ns, n.id ≠ id) → qvLoop id name h kind ns = .ok none
  | [], _ => rfl
  | n :: ns, hn => by
    unfold qvLoop
    rw [qvNode_other (hn n (by simp))]
    simp only [bind, Except.bind]
    exact qvLoop_none (fun m hm => hn m (by simp [hm]))

/-- the answer of the loop is that of the element -/
theorem qvLoop_at {id name : Tok} {h : Option Int} {kind : QvKind} :
    ∀ {ns : List QvNode}, (ns.map QvNode.id).Nodup → ∀ {n : QvNode}, n ∈ ns → n.id = id → ∀ {l : List QvItem}, qvField kind n = some (some l) →
      qvLoop id name h kind ns = .ok ((l.find? (qvMatch name h)).elim none QvItem.val)
  | [], _, _, hn, _, _, _ => by cases hn
  | m :: ns, hd, n, hn, hid, l, hl => by
    rw [List.map_cons, List.nodup_cons] at hd
    unfold qvLoop
    rcases List.mem_cons.mp hn with rfl | hn
    · simp only [qvNode, hid, if_true, hl, bind, Except.bind]
      cases l.find? (qvMatch name h) with
      | some p => rfl
      | none =>
        simp only [Option.map_none, Option.elim_none]
        exact qvLoop_none (fun k hk he => hd.1 (by rw [hid, ← he]; exact List.mem_map_of_mem hk))
    · have : m.id ≠ id := fun he => hd.1 (by rw [he, ← hid]; exact List.mem_map_of_mem hn)
      rw [qvNode_other this]
      simp only [bind, Except.bind]
      exact qvLoop_at hd.2 hn hid hl

theorem qvLoop_field_none {id name : Tok} {h : Option Int} {kind : QvKind} (hk : kind = .other) :
    ∀ {ns : List QvNode}, qvLoop id name h kind ns = .ok none
  | [] => rfl
  | n :: ns => by
    unfold qvLoop
    have : qvNode id name h kind n = .ok none := by
      unfold qvNode
      subst hk
      simp [qvField]
    rw [this]
    simp only [bind, Except.bind]
    exact qvLoop_field_none hk

/-- a request for an hour that is not 0, or for a value that does not change in time, without a position -/
theorem qvGet_answer {ns : List QvNode} (hp : QvProper ns) (tree : Option (List QvTreeNode)) (id name : Tok) (h : Option Int) (kind : QvKind) (h0 : h ≠ some 0)
    (hc : h = none → ∀ v k, ¬ QvHolds ns kind id name (some k) v) :
    ∃ r, qvGet ⟨some ns, tree⟩ id name [] h kind = .ok r ∧ QvAnswer ns kind id name h r := by
  simp only [qvGet, List.isEmpty_nil, if_true]
  by_cases hid : ∃ n ∈ ns, n.id = id
  swap
  · rw [qvLoop_none (fun n hn he => hid ⟨n, hn, he⟩)]
    exact ⟨none, rfl, fun v ⟨n, hn, he, _⟩ => absurd ⟨n, hn, he⟩ hid, fun _ => rfl⟩
  obtain ⟨n, hn, hid⟩ := hid
  rcases hf : qvField kind n with _ | _ | l
  · have hk : kind = .other := by
      revert hf
      cases kind <;> simp [qvField]
    rw [qvLoop_field_none hk]
    refine ⟨none, rfl, fun v ⟨m, _, _, l, hl, _⟩ => ?_, fun _ => rfl⟩
    subst hk
    simp [QvList] at hl
  · exact absurd hf (qvField_some (hp.params n hn) (hp.vars' n hn))
  · rw [qvLoop_at hp.ids hn hid hf]
    refine ⟨_, rfl, ?_, ?_⟩
    · rintro v ⟨m, hm, hmid, l', hl', hmem⟩
      have hmn : m = n := by
        have := List.inj_on_of_nodup_map hp.ids hm hn (by rw [hmid, hid])
        exact this
      subst hmn
      rw [← qvField_iff, hf] at hl'
      obtain rfl : l = l' := by simpa using hl'
      cases hfind : l.find? (qvMatch name h) with
      | none =>
        have := List.find?_eq_none.mp hfind _ hmem
        simp [qvMatch] at this
      | some p =>
        have hpl := List.mem_of_find?_eq_some hfind
        have hpm := List.find?_some hfind
        simp only [qvMatch, Bool.and_eq_true, decide_eq_true_eq, Bool.or_eq_true] at hpm
        have hph : p.hour = h := by
          rcases hpm.2 with hno | he
          · rcases h with _ | k
            · exact hp.constant _ hm kind l (qvField_iff.mp hf) _ hmem _ hpl hpm.1.symm rfl
            · simp only [qvNoHour, decide_eq_true_eq] at hno
              exact absurd (by rw [hno]) h0
          · exact he
        have := hp.once _ hm kind l (qvField_iff.mp hf) _ hmem _ hpl hpm.1.symm hph.symm
        rw [← this]
        rfl
    · intro hno
      cases hfind : l.find? (qvMatch name h) with
      | none => rfl
      | some p =>
        have hpl := List.mem_of_find?_eq_some hfind
        have hpm := List.find?_some hfind
        simp only [qvMatch, Bool.and_eq_true, decide_eq_true_eq, Bool.or_eq_true] at hpm
        exfalso
        rcases hph : p.hour with _ | k
        · rcases h with _ | k
          · exact hno p.val ⟨n, hn, hid, l, qvField_iff.mp hf, by rw [← hpm.1, ← hph]; exact hpl⟩
          · rcases hpm.2 with hz | he
            · simp only [qvNoHour, decide_eq_true_eq] at hz
              exact h0 (by rw [hz])
            · rw [hph] at he
              cases he
        · rcases h with _ | k'
          · exact hc rfl p.val k ⟨n, hn, hid, l, qvField_iff.mp hf, by rw [← hpm.1, ← hph]; exact hpl⟩
          · rcases hpm.2 with hz | he
            · simp only [qvNoHour, decide_eq_true_eq] at hz
              exact h0 (by rw [hz])
            · exact hno p.val ⟨n, hn, hid, l, qvField_iff.mp hf, by rw [← hpm.1, ← he]; exact hpl⟩

theorem qv_mapM {α β : Type} {f : α → Except PyErr β} {P : α → β → Prop} :
    ∀ {l : List α}, (∀ a ∈ l, ∃ b, f a = .ok b ∧ P a b) → ∃ r, l.mapM f = .ok r ∧ List.Forall₂ P l r
  | [], _ => ⟨[], by simp [pure, Except.pure], .nil⟩
  | a :: l, h => by
    obtain ⟨b, hb, hP⟩ := h a (by simp)
    obtain ⟨r, hr, hF⟩ := qv_mapM (l := l) (fun x hx => h x (by simp [hx]))
    refine ⟨b :: r, ?_, .cons hP hF⟩
    rw [List.mapM_cons, hb]
    simp only [bind, Except.bind]
    rw [hr]
    rfl

theorem qv_flatten {α β γ : Type} {P : α × β → γ → Prop} {hs : List β} :
    ∀ {l : List α} {r : List (List γ)}, List.Forall₂ (fun a s => List.Forall₂ (fun h x => P (a, h) x) hs s) l r →
      List.Forall₂ P (l.flatMap (fun a => hs.map (fun h => (a, h)))) r.flatten
  | _, _, .nil => .nil
  | _, _, .cons (a := a) (b := s) hab h => by
    rw [List.flatMap_cons, List.flatten_cons]
    exact List.rel_append (List.forall₂_map_left_iff.mpr hab) (qv_flatten h)

/-- **C244**: a request for lists of elements and hours (none of them 0) gives, element by element and hour by hour, the values that are held -/
theorem C244_lists_partial {ns : List QvNode} (hp : QvProper ns) (tree : Option (List QvTreeNode)) (name : Tok) (kind : QvKind) (ids : List Tok) (hs : List Int)
    (h0 : 0 ∉ hs) :
    ∃ r, qvValues ⟨some ns, tree⟩ (.list ids) name [] (.list (hs.map some)) kind = .ok r ∧
      List.Forall₂ (fun (q : Tok × Int) x => QvAnswer ns kind q.1 name (some q.2) x) (ids.flatMap (fun i => hs.map (fun h => (i, h)))) r := by
  have key : ∀ id ∈ ids, ∃ s, qvHours ⟨some ns, tree⟩ name [] kind (hs.map some) id = .ok s ∧
      List.Forall₂ (fun (h : Int) x => QvAnswer ns kind id name (some h) x) hs s := by
    intro id _
    have : ∀ h ∈ hs.map some, ∃ r, qvGet ⟨some ns, tree⟩ id name [] h kind = .ok r ∧ QvAnswer ns kind id name h r := by
      intro h hh
      obtain ⟨k, hk, rfl⟩ := List.mem_map.mp hh
      exact qvGet_answer hp tree id name (some k) kind (fun e => h0 (by cases e; exact hk)) (fun e => by cases e)
    obtain ⟨s, hs1, hs2⟩ := qv_mapM this
    exact ⟨s, hs1, List.forall₂_map_left_iff.mp hs2⟩
  obtain ⟨r, hr, hF⟩ := qv_mapM key
  refine ⟨r.flatten, ?_, qv_flatten (P := fun (q : Tok × Int) x => QvAnswer ns kind q.1 name (some q.2) x) hF⟩
  simp only [qvValues, qvOne, qvElements, hr, bind, Except.bind, pure, Except.pure]

/-- **C244**: the same for one hour that is not 0 -/
theorem C244_hour_partial {ns : List QvNode} (hp : QvProper ns) (tree : Option (List QvTreeNode)) (name : Tok) (kind : QvKind) (ids : List Tok) (h : Int) (h0 : h ≠ 0) :
    ∃ r, qvValues ⟨some ns, tree⟩ (.list ids) name [] (.one h) kind = .ok r ∧ List.Forall₂ (fun id x => QvAnswer ns kind id name (some h) x) ids r := by
  obtain ⟨r, hr, hF⟩ := C244_lists_partial hp tree name kind ids [h] (by simpa using fun e => h0 e.symm)
  refine ⟨r, hr, ?_⟩
  have : ids.flatMap (fun i => [h].map (fun h => (i, h))) = ids.map (fun i => (i, h)) := by
    clear hr hF
    induction ids with
    | nil => rfl
    | cons a l ih => simpa using ih
  rw [this] at hF
  exact List.forall₂_map_left_iff.mp hF

/-- **C244**: a value that does not change in time is read by asking for no hour -/
theorem C244_constant_partial {ns : List QvNode} (hp : QvProper ns) (tree : Option (List QvTreeNode)) (id name : Tok) (kind : QvKind)
    (hc : ∀ v k, ¬ QvHolds ns kind id name (some k) v) :
    ∃ r, qvGet ⟨some ns, tree⟩ id name [] none kind = .ok r ∧ QvAnswer ns kind id name none r :=
  qvGet_answer hp tree id name none kind (by simp) (fun _ => hc)

theorem qv_nohour (id name : Tok) (kind : QvKind) : ∀ ns : List QvNode, qvLoop id name (some 0) kind ns = qvLoop id name none kind ns
  | [] => rfl
  | n :: ns => by
    unfold qvLoop
    have hm : qvMatch name (some 0) = qvMatch name none := by
      funext p
      simp [qvMatch, qvNoHour]
    have : qvNode id name (some 0) kind n = qvNode id name none kind n := by simp only [qvNode, hm]
    rw [this]
    congr 1
    funext r
    cases r with
    | some v => rfl
    | none => exact qv_nohour id name kind ns

/-- **C244 is false** for the first hour: hour 0 is no hour; the answer is that of any hour -/
theorem C244_violated_hour (m : QvModel) (id name : Tok) (kind : QvKind) : qvGet m id name [] (some 0) kind = qvGet m id name [] none kind := by
  rcases m with ⟨_ | ns, tree⟩
  · rfl
  · exact qv_nohour id name kind ns

/-- a generator with a limit for three hours, in the order 1, 0, 2 -/
def exQvNodes : List QvNode :=
  [⟨"B1".toList, some [⟨"Pd".toList, none, some 5⟩], some []⟩,
   ⟨"G1".toList, some [⟨"Pmax".toList, some 1, some 11⟩, ⟨"Pmax".toList, some 0, some 10⟩, ⟨"Pmax".toList, some 2, some 12⟩], some []⟩]

/-- the value of hour 1 is given for hour 0 -/
theorem C244_violated_first : QvHolds exQvNodes .parameter "G1".toList "Pmax".toList (some 0) (some 10) ∧
    qvValues ⟨some exQvNodes, none⟩ (.list ["G1".toList]) "Pmax".toList [] (.list [some 0, some 1, some 2]) .parameter = .ok [some 11, some 11, some 12] := by
  refine ⟨⟨exQvNodes[1], by simp [exQvNodes], rfl, _, .inl ⟨rfl, rfl⟩, by simp⟩, by decide +kernel⟩

/-- **C244 is false** for every position in the tree: every request with one ends in an exception -/
theorem C244_violated_position (m : QvModel) (id name : Tok) (p : Tok × Tok) (pos : QvPos) (h : Option Int) (kind : QvKind) :
    ∃ e, qvGet m id name (p :: pos) h kind = .error e := by
  unfold qvGet
  simp only [List.isEmpty_cons, Bool.false_eq_true, if_false]
  rcases m with ⟨net, _ | ts⟩
  · exact ⟨_, rfl⟩
  · cases ts with
    | cons t ts => exact ⟨.type, rfl⟩
    | nil => cases pos with
      | nil => exact ⟨.runtime, rfl⟩
      | cons q pos => exact ⟨.runtime, rfl⟩

/-- **C244 is false** for all elements: with an element in the network, every such request ends in an exception -/
theorem C244_violated_all_elements (n : QvNode) (ns : List QvNode) (tree : Option (List QvTreeNode)) (name : Tok) (pos : QvPos) (hours : QvHours) (kind : QvKind) :
    ∃ e, qvValues ⟨some (n :: ns), tree⟩ .all name pos hours kind = .error e := by
  unfold qvValues
  cases qvOne ⟨some (n :: ns), tree⟩ name pos kind hours with
  | none => exact ⟨_, rfl⟩
  | some f => exact ⟨.attribute, rfl⟩

/-- **C244 is false** for all hours: with an element in the network, every such request for an element ends in an exception -/
theorem C244_violated_all_hours (n : QvNode) (ns : List QvNode) (tree : Option (List QvTreeNode)) (id : Tok) (ids : List Tok) (name : Tok) (pos : QvPos) (kind : QvKind) :
    qvValues ⟨some (n :: ns), tree⟩ (.list (id :: ids)) name pos .all kind = .error .attribute := by
  simp only [qvValues, qvOne, qvElements, List.mapM_cons, qvAll, bind, Except.bind]

/-- **C244 is false** for values that do not change in time, asked for by lists: without hours the request is refused, whatever the model holds -/
theorem C244_violated_no_hours (m : QvModel) (ids : QvIds) (name : Tok) (pos : QvPos) (kind : QvKind) : qvValues m ids name pos .none kind = .error .value := by
  cases ids <;> rfl

/-- **C244 is false** for the parameters that a model was given: the graph that is asked holds none of them -/
theorem C244_violated_build (m : QvModel) (ps : List (Tok × QvItem)) : (qvBuildNet m ps).2.net = some [] ∧ (ps ≠ [] → (qvBuildNet m ps).1 = some .attribute) := by
  cases ps <;> simp [qvBuildNet]

/-- **C245 is false** for networks: with an element in it, or before the graph is made, setting a value ends in an exception; without elements nothing is set, though the value should be created -/
theorem C245_violated_network (m : QvModel) (id name : Tok) (pos : QvPos) (h : Option Int) (kind : QvKind) (v : Option Rat) :
    qvSet m id name pos h kind v = .ok m ∨ ∃ e, qvSet m id name pos h kind v = .error e := by
  rcases m with ⟨_ | _ | ⟨n, ns⟩, tree⟩
  · exact .inr ⟨_, rfl⟩
  · exact .inl rfl
  · exact .inr ⟨_, rfl⟩

/-- a value that was set is never read: whenever setting and reading both succeed, the answer is None -/
theorem C245_violated_read (m m' : QvModel) (id name : Tok) (pos : QvPos) (h : Option Int) (kind : QvKind) (v r : Option Rat)
    (hs : qvSet m id name pos h kind v = .ok m') (hg : qvGet m' id name pos h kind = .ok r) : r = none := by
  rcases m with ⟨_ | _ | ⟨n, ns⟩, tree⟩
  · cases hs
  · have : m' = ⟨some [], tree⟩ := by
      simp only [qvSet] at hs
      cases hs
      rfl
    subst this
    cases pos with
    | nil =>
      simp only [qvGet, List.isEmpty_nil, if_true, qvLoop] at hg
      cases hg
      rfl
    | cons p pos =>
      obtain ⟨e, he⟩ := C244_violated_position ⟨some [], tree⟩ id name p pos h kind
      rw [he] at hg
      cases hg
  · cases hs

/-- the hypotheses are met by a model whose graph was made -/
example : ∃ m' r, qvSet (qvBuildNet {} []).2 "G1".toList "Pmax".toList [] (some 3) .parameter (some 7) = .ok m' ∧
    qvGet m' "G1".toList "Pmax".toList [] (some 3) .parameter = .ok r := ⟨_, _, rfl, rfl⟩

/-- **C245 is false** for trees: reading and setting end in an exception if there is a node, and otherwise nothing is set -/
theorem C245_violated_tree (m : QvModel) (name : Tok) (pos : QvPos) (kind : QvKind) (v : Option Rat) :
    (∀ t ts, m.tree = some (t :: ts) → qvSetTree m name pos kind v = .error .attribute ∧ qvGetTree m name pos kind = .error .attribute) ∧
    (m.tree = some [] → qvSetTree m name pos kind v = .ok m ∧ qvGetTree m name pos kind = .ok none) ∧
    ∀ ps, (qvBuildTree m ps).1 ≠ none ∧ (qvBuildTree m ps).2.tree = some [] := by
  refine ⟨fun t ts h => ?_, fun h => ?_, fun ps => ?_⟩
  · simp [qvSetTree, qvGetTree, h]
  · simp [qvSetTree, qvGetTree, h]
  · cases ps <;> simp [qvBuildTree]

/-- the hypotheses of the theorems on C244 are met -/
theorem exQv_proper : QvProper exQvNodes := by
  constructor
  · decide
  · decide
  · decide
  · intro n hn kind l hl
    rcases List.mem_cons.mp hn with rfl | hn
    · cases kind <;> simp [QvList] at hl <;> subst hl <;> decide
    · obtain rfl := List.mem_singleton.mp hn
      cases kind <;> simp [QvList] at hl <;> subst hl <;> decide
  · intro n hn kind l hl
    rcases List.mem_cons.mp hn with rfl | hn
    · cases kind <;> simp [QvList] at hl <;> subst hl <;> decide
    · obtain rfl := List.mem_singleton.mp hn
      cases kind <;> simp [QvList] at hl <;> subst hl <;> decide

example : qvValues ⟨some exQvNodes, none⟩ (.list ["G1".toList, "B1".toList]) "Pmax".toList [] (.list ([1, 2].map some)) .parameter = .ok [some 11, some 12, none, none] ∧
    qvGet ⟨some exQvNodes, none⟩ "B1".toList "Pd".toList [] none .parameter = .ok (some 5) := by
  constructor <;> decide +kernel

end Pyensys
