import Verif.Model.EngineTree
import Verif.Lemmas.Engine
import Verif.Props.Controls

/-!
# C223, C224: the balance tree and the expansion variables of the compiled engine
-/

namespace Pyensys

/-! ## C223 -/

theorem ctInsert_tree (kind : Tok) (nodes : List CtNode) (k : Nat) (e : CtElem) : ctInsert "tree".toList kind nodes k e = nodes := by
  unfold ctInsert
  rw [if_neg (by decide)]

theorem ctVariable_nodes (name id : Tok) (s : CtState) (k : Nat) : (ctVariable name id s k).1 = s.1 := by
  unfold ctVariable
  simp only [ctInsert_tree]

theorem ctInput_nodes {id : Tok} {s t : CtState} {k : Nat} (h : ctInput id s k = .ok t) : t.1 = s.1 := by
  unfold ctInput at h
  cases hk : s.1[k]? with
  | none => rw [hk] at h; simp at h
  | some n =>
    rw [hk] at h
    simp only [] at h
    obtain ⟨_, _, h⟩ := (bindE_iff _ _ _).mp h
    injection h with h
    rw [← h, ctVariable_nodes]

theorem ctOutput_nodes {id : Tok} {s t : CtState} {k : Nat} (h : ctOutput id s k = .ok t) : t.1 = s.1 := by
  unfold ctOutput at h
  cases hk : s.1[k]? with
  | none => rw [hk] at h; simp at h
  | some n =>
    rw [hk] at h
    simp only [] at h
    obtain ⟨_, _, h⟩ := (bindE_iff _ _ _).mp h
    injection h with h
    rw [← h, ctVariable_nodes]

theorem ctFold_nodes {α : Type} {f : CtState → α → Except CErr CtState} (hf : ∀ s a t, f s a = .ok t → t.1 = s.1) :
    ∀ (l : List α) (s t : CtState), l.foldlM f s = .ok t → t.1 = s.1 := by
  intro l
  induction l with
  | nil =>
    intro s t h
    injection h with h
    rw [h]
  | cons a l ih =>
    intro s t h
    rw [List.foldlM_cons] at h
    obtain ⟨u, h1, h2⟩ := (bindE_iff _ _ _).mp h
    rw [ih u t h2, hf s a u h1]

theorem ctVariables_nodes {s t : CtState} {id : Tok} (h : ctVariables s id = .ok t) : t.1 = s.1 := by
  unfold ctVariables at h
  obtain ⟨u, h1, h2⟩ := (bindE_iff _ _ _).mp h
  rw [ctFold_nodes (fun s a t => ctOutput_nodes) _ _ _ h2, ctFold_nodes (fun s a t => ctInput_nodes) _ _ _ h1, ctVariable_nodes, ctVariable_nodes]

theorem ctConstraints_nodes (s : CtState) (id : Tok) : (ctConstraints s id).1 = s.1 := by
  unfold ctConstraints
  have : ∀ (l : List Nat) (s : CtState), (l.foldl (fun s k => (ctInsert "tree".toList "constraints".toList s.1 k ⟨"balance".toList, ctRefOf id, s.2⟩, s.2 + 1)) s).1 = s.1 := by
    intro l
    induction l with
    | nil => intro s; rfl
    | cons a l ih =>
      intro s
      rw [List.foldl_cons, ih]
      simp only [ctInsert_tree]
  exact this _ _

theorem ctNodesFrom_none (params : List CtParam) : ∀ (ls : List Int) (k : Nat), ∀ n ∈ ctNodesFrom params k ls, n.constraints = [] ∧ n.params = [] := by
  intro ls
  induction ls with
  | nil => intro k n h; cases h
  | cons l ls ih =>
    intro k n h
    unfold ctNodesFrom at h
    rw [List.mem_append] at h
    rcases h with h | h
    · obtain ⟨m, _, rfl⟩ := List.mem_map.mp h
      exact ⟨rfl, rfl⟩
    · exact ih _ n h

theorem ctAttach_none (p : CtParam) : ∀ (l : List CtNode), (∀ n ∈ l, n.constraints = []) → ∀ n ∈ ctAttach l p, n.constraints = [] := by
  intro l
  induction l with
  | nil => intro _ n h; cases h
  | cons a l ih =>
    intro hl n h
    unfold ctAttach at h
    split at h
    · rcases List.mem_cons.mp h with rfl | h
      · exact hl a (by simp)
      · exact hl n (by simp [h])
    · rcases List.mem_cons.mp h with rfl | h
      · exact hl _ (by simp)
      · exact ih (fun m hm => hl m (by simp [hm])) n h

theorem ctAttach_length (p : CtParam) : ∀ (l : List CtNode), (ctAttach l p).length = l.length := by
  intro l
  induction l with
  | nil => rfl
  | cons a l ih =>
    unfold ctAttach
    split
    · simp
    · simp [ih]

theorem ctNodes_none (params : List CtParam) : ∀ n ∈ ctNodes params, n.constraints = [] := by
  unfold ctNodes
  have : ∀ (ps : List CtParam) (l : List CtNode), (∀ n ∈ l, n.constraints = []) → ∀ n ∈ ps.foldl ctAttach l, n.constraints = [] := by
    intro ps
    induction ps with
    | nil => intro l hl; exact hl
    | cons p ps ih =>
      intro l hl
      exact ih _ (ctAttach_none p l hl)
  exact this _ _ (fun n h => (ctNodesFrom_none params _ _ n h).1)

theorem ctNodes_length (params : List CtParam) : (ctNodes params).length = (ctNodesFrom params 1 (ctLevels params)).length := by
  unfold ctNodes
  have : ∀ (ps : List CtParam) (l : List CtNode), (ps.foldl ctAttach l).length = l.length := by
    intro ps
    induction ps with
    | nil => intro l; rfl
    | cons p ps ih =>
      intro l
      rw [List.foldl_cons, ih, ctAttach_length]
  exact this _ _

theorem ctRefer_none (ids : List Tok) (name : Tok) (n : CtNode) : (ctRefer ids name n).constraints = n.constraints := by
  unfold ctRefer
  split <;> rfl

theorem ctNames_ne (params : List CtParam) (l : Int) (h : l ∈ ctLevels params) : ctNames params l ≠ [] := by
  unfold ctLevels at h
  rw [List.mem_insertionSort, List.mem_eraseDups, List.mem_map] at h
  obtain ⟨p, hp, hl⟩ := h
  have : p.node ∈ ctNames params l := by
    unfold ctNames
    rw [List.mem_eraseDups, List.mem_map]
    exact ⟨p, List.mem_filter.mpr ⟨hp, by simpa using hl⟩, rfl⟩
  intro he
  rw [he] at this
  cases this

theorem ctNodes_ne (params : List CtParam) (h : ctLevels params ≠ []) : ctNodes params ≠ [] := by
  intro he
  have hl := ctNodes_length params
  rw [he] at hl
  cases hc : ctLevels params with
  | nil => exact h hc
  | cons l ls =>
    rw [hc] at hl
    unfold ctNodesFrom at hl
    have := ctNames_ne params l (by rw [hc]; simp)
    have h2 : (ctNames params l).length ≠ 0 := by simpa using this
    simp at hl
    omega

theorem ctMatrix_none (nodes : List CtNode) (id : Tok) (hn : nodes ≠ []) (hc : ∀ n ∈ nodes, n.constraints = []) : ctMatrix nodes id = .error .badGet := by
  cases nodes with
  | nil => exact absurd rfl hn
  | cons n nodes =>
    unfold ctMatrix
    rw [List.mapM_cons]
    have : ctRow id n = .error .badGet := by
      unfold ctRow
      rw [hc n (by simp)]
      rfl
    rw [this]
    rfl

theorem ctAll_ne (ids : List Tok) : ctAll ids ≠ [] := by
  unfold ctAll
  split
  · simp
  · assumption

theorem ctReferred_none (ids : List Tok) (params : List CtParam) : ∀ n ∈ ctReferred ids (ctNodes params), n.constraints = [] := by
  intro n h
  unfold ctReferred at h
  obtain ⟨m, hm, rfl⟩ := List.mem_map.mp h
  obtain ⟨k, hk, rfl⟩ := List.mem_map.mp hm
  rw [ctRefer_none, ctRefer_none]
  exact ctNodes_none params k hk

/-- C223, violated: whatever tree and connections are given, the engine never gets a program with the balance tree: it fails with a code that nobody sees, with an exception, or in undefined behaviour -/
theorem C223_violated (dc : Bool) (cs : List CtConn) (params : List CtParam) (r : List (List Int)) : ctModel dc cs params ≠ .ok r := by
  intro h
  unfold ctModel at h
  obtain ⟨_, h1, h⟩ := (bindE_iff _ _ _).mp h
  have hl : ctLevels params ≠ [] := by
    intro he
    rw [if_pos he] at h1
    cases h1
  obtain ⟨ids, _, h⟩ := (bindE_iff _ _ _).mp h
  obtain ⟨s, h3, h⟩ := (bindE_iff _ _ _).mp h
  have hs : s.1 = ctReferred ids (ctNodes params) := ctFold_nodes (fun s a t => ctVariables_nodes) _ _ _ h3
  have hk : ∀ (l : List Tok) (s : CtState), (l.foldl ctConstraints s).1 = s.1 := by
    intro l
    induction l with
    | nil => intro s; rfl
    | cons a l ih =>
      intro s
      rw [List.foldl_cons, ih, ctConstraints_nodes]
  dsimp only at h
  rw [hk, hs] at h
  cases hi : ctAll ids with
  | nil => exact ctAll_ne ids hi
  | cons id rest =>
    rw [hi, List.mapM_cons, ctMatrix_none _ id ?_ (ctReferred_none ids params)] at h
    · cases h
    · unfold ctReferred
      simpa using ctNodes_ne params hl

/-- the engine ends with -2 or goes on with the same vertices -/
def CtOr (s : CtState) (r : Except CErr CtState) : Prop := r = .error (.code (-2)) ∨ ∃ t, r = .ok t ∧ t.1 = s.1

theorem ctInput_or {id : Tok} {s : CtState} {k : Nat} (hk : k < s.1.length) : CtOr s (ctInput id s k) := by
  unfold ctInput
  rw [List.getElem?_eq_getElem hk]
  simp only []
  unfold ctOne
  split
  · right
    exact ⟨_, rfl, ctVariable_nodes _ _ _ _⟩
  · left; rfl

theorem ctOutput_or {id : Tok} {s : CtState} {k : Nat} (hk : k < s.1.length) : CtOr s (ctOutput id s k) := by
  unfold ctOutput
  rw [List.getElem?_eq_getElem hk]
  simp only []
  unfold ctOne
  split
  · right
    exact ⟨_, rfl, ctVariable_nodes _ _ _ _⟩
  · left; rfl

/-- a loop over vertices -/
theorem ctFold_or {f : CtState → Nat → Except CErr CtState} (hf : ∀ s k, k < s.1.length → CtOr s (f s k)) :
    ∀ (l : List Nat) (s : CtState), (∀ k ∈ l, k < s.1.length) → CtOr s (l.foldlM f s) := by
  intro l
  induction l with
  | nil => intro s _; right; exact ⟨s, rfl, rfl⟩
  | cons k l ih =>
    intro s h
    rw [List.foldlM_cons]
    rcases hf s k (h k (by simp)) with he | ⟨t, ht, hs⟩
    · left; rw [he]; rfl
    · rw [ht]
      rcases ih t (fun j hj => by rw [hs]; exact h j (by simp [hj])) with he | ⟨u, hu, hus⟩
      · left; exact he
      · right; exact ⟨u, hu, by rw [hus, hs]⟩

/-- a loop over vertices one of which fails -/
theorem ctFold_fails {f : CtState → Nat → Except CErr CtState} (hf : ∀ s k, k < s.1.length → CtOr s (f s k)) {nodes : List CtNode} {j : Nat} (hj : ∀ s : CtState, s.1 = nodes → f s j = .error (.code (-2))) :
    ∀ (l : List Nat) (s : CtState), s.1 = nodes → (∀ k ∈ l, k < s.1.length) → j ∈ l → l.foldlM f s = .error (.code (-2)) := by
  intro l
  induction l with
  | nil => intro s _ _ h; cases h
  | cons k l ih =>
    intro s hs h hm
    rw [List.foldlM_cons]
    rcases hf s k (h k (by simp)) with he | ⟨t, ht, hts⟩
    · rw [he]; rfl
    · rcases List.mem_cons.mp hm with rfl | hm
      · rw [hj s hs] at ht; cases ht
      · rw [ht]
        exact ih t (by rw [hts, hs]) (fun i hi => by rw [hts]; exact h i (by simp [hi])) hm

theorem ctNodes_refs (params : List CtParam) (hr : ∀ p ∈ params, p.ref = none) : ∀ n ∈ ctNodes params, ∀ p ∈ n.params, p.ref = none := by
  have hpush : ∀ (l : List CtParam) (p : CtParam), p.ref = none → (∀ q ∈ l, q.ref = none) → ∀ q ∈ ctPush l p, q.ref = none := by
    intro l p hp
    induction l with
    | nil =>
      intro _ q hq
      rw [show ctPush [] p = [p] from rfl] at hq
      rw [List.mem_singleton] at hq
      rw [hq]; exact hp
    | cons e l ih =>
      intro hl q hq
      unfold ctPush at hq
      split at hq
      · rcases List.mem_cons.mp hq with rfl | hq
        · exact hl e (by simp)
        · exact hl q (by simp [hq])
      · rcases List.mem_cons.mp hq with rfl | hq
        · exact hl _ (by simp)
        · exact ih (fun x hx => hl x (by simp [hx])) q hq
  have hatt : ∀ (l : List CtNode) (p : CtParam), p.ref = none → (∀ n ∈ l, ∀ q ∈ n.params, q.ref = none) → ∀ n ∈ ctAttach l p, ∀ q ∈ n.params, q.ref = none := by
    intro l p hp
    induction l with
    | nil => intro _ n h; cases h
    | cons a l ih =>
      intro hl n h
      unfold ctAttach at h
      split at h
      · rcases List.mem_cons.mp h with rfl | h
        · exact hpush _ p hp (hl a (by simp))
        · exact hl n (by simp [h])
      · rcases List.mem_cons.mp h with rfl | h
        · exact hl _ (by simp)
        · exact ih (fun m hm => hl m (by simp [hm])) n h
  have : ∀ (ps : List CtParam), (∀ p ∈ ps, p.ref = none) → ∀ (l : List CtNode), (∀ n ∈ l, ∀ q ∈ n.params, q.ref = none) → ∀ n ∈ ps.foldl ctAttach l, ∀ q ∈ n.params, q.ref = none := by
    intro ps
    induction ps with
    | nil => intro _ l hl; exact hl
    | cons p ps ih =>
      intro hps l hl
      exact ih (fun q hq => hps q (by simp [hq])) _ (hatt l p (hps p (by simp)) hl)
  unfold ctNodes
  refine this params hr _ ?_
  intro n hn q hq
  rw [(ctNodesFrom_none params _ _ n hn).2] at hq
  cases hq

theorem ctReferred_nil (nodes : List CtNode) : ctReferred [] nodes = nodes := by
  have h : ∀ (name : Tok) (n : CtNode), ctRefer [] name n = n := by
    intro name n
    unfold ctRefer
    split
    · rfl
    · rfl
  have hid : ∀ name : Tok, nodes.map (ctRefer [] name) = nodes := by
    intro name
    conv_rhs => rw [← List.map_id nodes]
    exact List.map_congr_left (fun n _ => h name n)
  unfold ctReferred
  rw [hid, hid]

/-- C223, violated: without the DC OPF (or without connections) every tree, however complete, is refused as incoherent: outputs are looked up by a reference that no parameter has -/
theorem C223_violated_alone (cs : List CtConn) (params : List CtParam) (hl : ctLevels params ≠ []) (hr : ∀ p ∈ params, p.ref = none) : ctModel false cs params = .error (.code (-2)) := by
  unfold ctModel
  rw [if_neg hl]
  show ((ctAll []).foldlM ctVariables (ctReferred [] (ctNodes params), 0) >>= _) = _
  rw [ctReferred_nil]
  have h : (ctAll []).foldlM ctVariables (ctNodes params, 0) = .error (.code (-2)) := by
    show (["N/A".toList] : List Tok).foldlM ctVariables (ctNodes params, 0) = _
    rw [List.foldlM_cons]
    have : ctVariables (ctNodes params, 0) "N/A".toList = .error (.code (-2)) := by
      unfold ctVariables
      simp only []
      generalize hs : ctVariable "deficit".toList "N/A".toList (ctVariable "surplus".toList "N/A".toList (ctNodes params, 0) 0) 0 = s
      have hn : s.1 = ctNodes params := by rw [← hs, ctVariable_nodes, ctVariable_nodes]
      rcases ctFold_or (fun s k hk => ctInput_or (id := "N/A".toList) hk) (List.range s.1.length) s (fun k hk => List.mem_range.mp hk) with he | ⟨t, ht, hts⟩
      · rw [he]; rfl
      · rw [ht]
        show (List.range t.1.length).foldlM (ctOutput "N/A".toList) t = _
        have hpos : 0 < t.1.length := by
          rw [hts, hn]
          exact List.length_pos_of_ne_nil (ctNodes_ne params hl)
        refine ctFold_fails (nodes := ctNodes params) (j := 0) (fun s k hk => ctOutput_or hk) ?_ _ t (by rw [hts, hn]) (fun k hk => List.mem_range.mp hk) (List.mem_range.mpr hpos)
        intro u hu
        unfold ctOutput
        rw [hu]
        have h0 : 0 < (ctNodes params).length := List.length_pos_of_ne_nil (ctNodes_ne params hl)
        rw [List.getElem?_eq_getElem h0]
        simp only []
        have hf : ctFind (ctNodes params)[0].params "output".toList (some "N/A".toList) = [] := by
          unfold ctFind
          rw [List.filter_eq_nil_iff]
          intro p hp
          have := ctNodes_refs params hr _ (List.getElem_mem h0) p hp
          rw [this]
          simp
        rw [hf]
        rfl
    rw [this]
    rfl
  rw [h]
  rfl

/-! ### repeated names -/

/-- a vertex after another one of its level and name never gets parameters -/
theorem ctAttach_later (p : CtParam) : ∀ (l : List CtNode) (i j : Nat) (a b : CtNode), i < j → l[i]? = some a → l[j]? = some b → a.level = b.level → a.name = b.name →
    (∃ a', (ctAttach l p)[i]? = some a' ∧ a'.level = a.level ∧ a'.name = a.name) ∧ (ctAttach l p)[j]? = some b := by
  intro l
  induction l with
  | nil => intro i j a b _ h; simp at h
  | cons n l ih =>
    intro i j a b hij hi hj hl hn
    cases j with
    | zero => omega
    | succ j =>
      rw [List.getElem?_cons_succ] at hj
      unfold ctAttach
      cases i with
      | zero =>
        rw [List.getElem?_cons_zero] at hi
        injection hi with hi
        subst hi
        by_cases hc : n.level = p.level ∧ n.name = p.node
        · rw [if_pos hc]
          exact ⟨⟨_, rfl, rfl, rfl⟩, hj⟩
        · rw [if_neg hc]
          refine ⟨⟨_, rfl, rfl, rfl⟩, ?_⟩
          rw [List.getElem?_cons_succ]
          have hb : ¬ (b.level = p.level ∧ b.name = p.node) := by rwa [hl, hn] at hc
          have key : ∀ (l : List CtNode) (j : Nat), l[j]? = some b → (ctAttach l p)[j]? = some b := by
            intro l
            induction l with
            | nil => intro j h; simp at h
            | cons m l ih =>
              intro j h
              unfold ctAttach
              cases j with
              | zero =>
                rw [List.getElem?_cons_zero] at h
                injection h with h
                subst h
                rw [if_neg hb]
                rfl
              | succ j =>
                rw [List.getElem?_cons_succ] at h
                split
                · rw [List.getElem?_cons_succ]; exact h
                · rw [List.getElem?_cons_succ]; exact ih j h
          exact key l j hj
      | succ i =>
        rw [List.getElem?_cons_succ] at hi
        by_cases hc : n.level = p.level ∧ n.name = p.node
        · rw [if_pos hc]
          exact ⟨⟨a, by rw [List.getElem?_cons_succ]; exact hi, rfl, rfl⟩, by rw [List.getElem?_cons_succ]; exact hj⟩
        · rw [if_neg hc]
          obtain ⟨⟨a', h1, h2, h3⟩, h4⟩ := ih i j a b (by omega) hi hj hl hn
          exact ⟨⟨a', by rw [List.getElem?_cons_succ]; exact h1, h2, h3⟩, by rw [List.getElem?_cons_succ]; exact h4⟩

theorem ctFold_later : ∀ (ps : List CtParam) (l : List CtNode) (i j : Nat) (a b : CtNode), i < j → l[i]? = some a → l[j]? = some b → a.level = b.level → a.name = b.name → (ps.foldl ctAttach l)[j]? = some b := by
  intro ps
  induction ps with
  | nil => intro l i j a b _ _ hj _ _; exact hj
  | cons p ps ih =>
    intro l i j a b hij hi hj hl hn
    obtain ⟨⟨a', h1, h2, h3⟩, h4⟩ := ctAttach_later p l i j a b hij hi hj hl hn
    exact ih _ i j a' b hij h1 h4 (by rw [h2, hl]) (by rw [h3, hn])

/-- C223, violated: a tree whose first level has several names and which has a second level is refused as incoherent, however complete its parameters are: only the first copy of a vertex gets them -/
theorem C223_violated_copies (dc : Bool) (cs : List CtConn) (params : List CtParam) (ids : List Tok) (hids : ctIds dc cs = .ok ids) (l1 l2 : Int) (ls : List Int) (hl : ctLevels params = l1 :: l2 :: ls)
    (h2 : 2 ≤ (ctNames params l1).length) : ctModel dc cs params = .error (.code (-2)) := by
  obtain ⟨m, ms, hm⟩ : ∃ m ms, ctNames params l2 = m :: ms := by
    cases hc : ctNames params l2 with
    | nil => exact absurd hc (ctNames_ne params l2 (by rw [hl]; simp))
    | cons m ms => exact ⟨m, ms, rfl⟩
  generalize hk : (ctNames params l1).length = k at h2
  have hfrom : ∃ rest, ctNodesFrom params 1 (ctLevels params) = (ctNames params l1).map (fun n => (⟨l1, n, [], [], []⟩ : CtNode)) ++ ((m :: ms).map (fun n => (⟨l2, n, [], [], []⟩ : CtNode)) ++ ((m :: ms).map (fun n => (⟨l2, n, [], [], []⟩ : CtNode)) ++ rest)) := by
    rw [hl]
    unfold ctNodesFrom
    unfold ctNodesFrom
    obtain ⟨k', rfl⟩ : ∃ k', k = k' + 2 := ⟨k - 2, by omega⟩
    rw [hm, hk, Nat.one_mul]
    refine ⟨(List.replicate k' (m :: ms)).flatten.map (fun n => (⟨l2, n, [], [], []⟩ : CtNode)) ++ ctNodesFrom params ((k' + 2) * (m :: ms).length) ls, ?_⟩
    rw [List.replicate_one, List.flatten_cons, List.flatten_nil, List.append_nil, List.replicate_succ (n := k' + 1), List.replicate_succ (n := k'), List.flatten_cons, List.flatten_cons, List.map_append, List.map_append]
    simp only [List.append_assoc]
  obtain ⟨rest, hfrom⟩ := hfrom
  have hi : (ctNodesFrom params 1 (ctLevels params))[k]? = some ⟨l2, m, [], [], []⟩ := by
    rw [hfrom, List.getElem?_append_right (by simp [hk])]
    simp [hk]
  have hj : (ctNodesFrom params 1 (ctLevels params))[k + (ms.length + 1)]? = some ⟨l2, m, [], [], []⟩ := by
    rw [hfrom, List.getElem?_append_right (by simp [hk]), List.getElem?_append_right (by simp [hk])]
    simp [hk]
  have hnode : (ctNodes params)[k + (ms.length + 1)]? = some ⟨l2, m, [], [], []⟩ := ctFold_later params _ k _ _ _ (by omega) hi hj rfl rfl
  generalize k + (ms.length + 1) = j at hnode
  have href : (ctReferred ids (ctNodes params))[j]? = some ⟨l2, m, [], [], []⟩ := by
    unfold ctReferred
    rw [List.getElem?_map, List.getElem?_map, hnode]
    rfl
  unfold ctModel
  rw [if_neg (by rw [hl]; simp), hids]
  show ((ctAll ids).foldlM ctVariables (ctReferred ids (ctNodes params), 0) >>= _) = _
  cases hi : ctAll ids with
  | nil => exact absurd hi (ctAll_ne ids)
  | cons id restIds =>
    have : ctVariables (ctReferred ids (ctNodes params), 0) id = .error (.code (-2)) := by
      unfold ctVariables
      simp only []
      generalize hs : ctVariable "deficit".toList id (ctVariable "surplus".toList id (ctReferred ids (ctNodes params), 0) 0) 0 = s
      have hn : s.1 = ctReferred ids (ctNodes params) := by rw [← hs, ctVariable_nodes, ctVariable_nodes]
      have : (List.range s.1.length).foldlM (ctInput id) s = .error (.code (-2)) := by
        refine ctFold_fails (nodes := ctReferred ids (ctNodes params)) (j := j) (fun s k hk => ctInput_or hk) ?_ _ s hn (fun k hk => List.mem_range.mp hk) ?_
        · intro u hu
          unfold ctInput
          rw [hu, href]
          rfl
        · rw [List.mem_range, hn]
          exact (List.getElem?_eq_some_iff.mp href).1
      rw [this]
      rfl
    rw [List.foldlM_cons, this]
    rfl

/-! ## C224 -/

/-- the branch is a candidate: its entry vTEP is true -/
def CtCandidate (v : CVertex) : Prop := cIsBranch v = true ∧ ∃ i, cMulti v.params [cNamed "vTEP".toList] = [i] ∧ i.value = .bool true

/-- the data of a branch: one vTEP, and one CTEP if it is a candidate; the ID is a text -/
def CtComplete (v : CVertex) : Prop :=
  (∃ i b, cMulti v.params [cNamed "vTEP".toList] = [i] ∧ i.value = .bool b) ∧
  (CtCandidate v → ∃ i q, cMulti v.params [cNamed "CTEP".toList] = [i] ∧ i.value = .dbl q) ∧
  ∃ s, (cGetChar v.chars "ID".toList).value = .str s

/-- the variable of a candidate with this ID -/
def CtVariableOf (v : CVertex) (m : CtMoea) : Prop := (cGetChar v.chars "ID".toList).value = .str m.id ∧ m.name = "new branch variable".toList ∧ m.min = 0 ∧ m.max = 1

/-- the option is on -/
def CtTepOn (opts : List CtOption) : Prop := ∃ o, opts.filter (fun o => decide (o.name = "TEP".toList)) = [o] ∧ o.engine = "fdif".toList ∧ o.value = .bool true

theorem ctVertex_on {opts : List CtOption} (ho : CtTepOn opts) (l : List CtMoea) (v : CVertex) (hv : cIsBranch v = true → CtComplete v) :
    (CtCandidate v ∧ ∃ m, ctVertex opts l v = .ok (l ++ [m]) ∧ CtVariableOf v m) ∨ (¬ CtCandidate v ∧ ctVertex opts l v = .ok l) := by
  obtain ⟨o, h1, h2, h3⟩ := ho
  unfold ctVertex
  by_cases hb : cIsBranch v = true
  · rw [if_pos hb]
    obtain ⟨⟨i, b, hi, hib⟩, hc, s, hs⟩ := hv hb
    have ht : ctTep opts = .ok o := by unfold ctTep; rw [h1]
    have hon : ctOn o = .ok true := by unfold ctOn; rw [if_pos h2, h3]; rfl
    have he : ctEntry v "vTEP".toList = .ok (.bool b) := by unfold ctEntry; rw [hi]; simp only []; rw [hib]
    rw [ht]
    have hall : ((Except.ok o : Except CErr CtOption) >>= fun o => ctOn o >>= fun on => ctBranchOn v on l) = ctCandidate v b l := by
      show (ctOn o >>= fun on => ctBranchOn v on l) = _
      rw [hon]
      show ctBranchOn v true l = _
      unfold ctBranchOn
      rw [if_pos rfl, he]
      rfl
    rw [hall]
    cases b with
    | false =>
      right
      refine ⟨?_, rfl⟩
      rintro ⟨_, i', h', hv'⟩
      rw [hi] at h'
      injection h' with h' _
      rw [← h', hib] at hv'
      cases hv'
    | true =>
      left
      have hcand : CtCandidate v := ⟨hb, i, hi, hib⟩
      obtain ⟨i2, q, hi2, hq⟩ := hc hcand
      refine ⟨hcand, ⟨s, "new branch variable".toList, 0, 1⟩, ?_, hs, rfl, rfl, rfl⟩
      have hn : ctNew v = .ok ⟨s, "new branch variable".toList, 0, 1⟩ := by
        unfold ctNew
        have he2 : ctEntry v "CTEP".toList = .ok (.dbl q) := by unfold ctEntry; rw [hi2]; simp only []; rw [hq]
        rw [he2, hs]
        rfl
      unfold ctCandidate
      rw [if_pos rfl, hn]
      rfl
  · rw [if_neg hb]
    exact Or.inr ⟨fun h => hb h.1, rfl⟩

theorem ctMoeaRun_on {opts : List CtOption} (ho : CtTepOn opts) : ∀ (vs : List CVertex) (l : List CtMoea), (∀ v ∈ vs, cIsBranch v = true → CtComplete v) →
    ∃ ms, ctMoeaRun opts l vs = (l ++ ms, .ok ()) ∧ ∃ cand : List CVertex, cand.Sublist vs ∧ (∀ v ∈ cand, CtCandidate v) ∧ (∀ v ∈ vs, CtCandidate v → v ∈ cand) ∧ List.Forall₂ CtVariableOf cand ms := by
  intro vs
  induction vs with
  | nil => intro l _; exact ⟨[], by simp [ctMoeaRun], [], by simp, by simp, by simp, List.Forall₂.nil⟩
  | cons v vs ih =>
    intro l h
    unfold ctMoeaRun
    rcases ctVertex_on ho l v (h v (by simp)) with ⟨hc, m, hm, hvm⟩ | ⟨hc, hm⟩
    · rw [hm]
      obtain ⟨ms, h1, cand, h2, h3, h4, h5⟩ := ih (l ++ [m]) (fun w hw => h w (by simp [hw]))
      refine ⟨m :: ms, by simpa using h1, v :: cand, h2.cons_cons v, ?_, ?_, List.Forall₂.cons hvm h5⟩
      · intro w hw
        rcases List.mem_cons.mp hw with rfl | hw
        · exact hc
        · exact h3 w hw
      · intro w hw hcw
        rcases List.mem_cons.mp hw with rfl | hw
        · simp
        · simp [h4 w hw hcw]
    · rw [hm]
      obtain ⟨ms, h1, cand, h2, h3, h4, h5⟩ := ih l (fun w hw => h w (by simp [hw]))
      refine ⟨ms, h1, cand, h2.cons v, h3, ?_, h5⟩
      intro w hw hcw
      rcases List.mem_cons.mp hw with rfl | hw
      · exact absurd hcw hc
      · exact h4 w hw hcw

/-- C224: if the option is on and the data of every branch are complete, the expansion variables are those of the candidates, in the order of the network, each from 0 to 1, and there is one objective -/
theorem C224_variables_partial (opts : List CtOption) (ho : CtTepOn opts) (vs : List CVertex) (hv : ∀ v ∈ vs, cIsBranch v = true → CtComplete v) :
    ∃ cand : List CVertex, cand.Sublist vs ∧ (∀ v ∈ vs, v ∈ cand ↔ CtCandidate v) ∧ List.Forall₂ CtVariableOf cand (ctMoea opts vs).1 ∧ (ctMoea opts vs).2 = ["transmission expansion cost".toList] := by
  obtain ⟨ms, h1, cand, h2, h3, h4, h5⟩ := ctMoeaRun_on ho vs [] hv
  obtain ⟨o, o1, o2, o3⟩ := ho
  have hob : ctObjectives opts = .ok ["transmission expansion cost".toList] := by
    unfold ctObjectives
    have ht : ctTep opts = .ok o := by unfold ctTep; rw [o1]
    have hon : ctOn o = .ok true := by unfold ctOn; rw [if_pos o2, o3]; rfl
    rw [ht]
    show (ctOn o >>= _) = _
    rw [hon]
    rfl
  have hm : ctMoea opts vs = (ms, ["transmission expansion cost".toList]) := by
    unfold ctMoea
    rw [h1, hob]
    rfl
  rw [hm]
  exact ⟨cand, h2, fun v hv => ⟨h3 v, h4 v hv⟩, h5, rfl⟩

/-- C224, violated: a branch without (or with two) entries vTEP hides all candidates after it and the objective; nobody sees the code -/
theorem C224_violated_missing (opts : List CtOption) (ho : CtTepOn opts) (pre post : List CVertex) (hv : ∀ v ∈ pre, cIsBranch v = true → CtComplete v) (b : CVertex) (hb : cIsBranch b = true)
    (hm : (cMulti b.params [cNamed "vTEP".toList]).length ≠ 1) : ctMoea opts (pre ++ b :: post) = ((ctMoea opts pre).1, []) := by
  obtain ⟨ms, h1, _⟩ := ctMoeaRun_on ho pre [] hv
  have happ : ∀ (pre : List CVertex) (l ms : List CtMoea), ctMoeaRun opts l pre = (ms, .ok ()) → ctMoeaRun opts l (pre ++ b :: post) = ctMoeaRun opts ms (b :: post) := by
    intro pre
    induction pre with
    | nil =>
      intro l ms h
      unfold ctMoeaRun at h
      injection h with h _
      rw [h]
      rfl
    | cons v pre ih =>
      intro l ms h
      unfold ctMoeaRun at h
      rw [List.cons_append]
      conv_lhs => unfold ctMoeaRun
      cases hc : ctVertex opts l v with
      | error e => rw [hc] at h; simp at h
      | ok l' =>
        rw [hc] at h
        exact ih l' ms h
  have hfirst : (ctMoea opts pre).1 = ms := by
    unfold ctMoea
    rw [h1]
    simp only [List.nil_append]
    split <;> rfl
  rw [hfirst]
  unfold ctMoea
  rw [happ pre [] ms (by simpa using h1)]
  have hfail : ctVertex opts ms b = .error (.code (-1)) := by
    obtain ⟨o, o1, o2, o3⟩ := ho
    unfold ctVertex
    rw [if_pos hb]
    have ht : ctTep opts = .ok o := by unfold ctTep; rw [o1]
    have hon : ctOn o = .ok true := by unfold ctOn; rw [if_pos o2, o3]; rfl
    have he : ctEntry b "vTEP".toList = .error (.code (-1)) := by
      unfold ctEntry
      split
      · rename_i i hi
        rw [hi] at hm
        exact absurd rfl hm
      · rfl
    rw [ht]
    show (ctOn o >>= fun on => ctBranchOn b on ms) = _
    rw [hon]
    show ctBranchOn b true ms = _
    unfold ctBranchOn
    rw [if_pos rfl, he]
    rfl
  unfold ctMoeaRun
  rw [hfail]

/-- C224, violated: with another engine there are neither variables nor objectives, though the option is on -/
theorem C224_violated_engine (opts : List CtOption) (o : CtOption) (ho : opts.filter (fun o => decide (o.name = "TEP".toList)) = [o]) (he : o.engine ≠ "fdif".toList) (vs : List CVertex) : ctMoea opts vs = ([], []) := by
  have ht : ctTep opts = .ok o := by unfold ctTep; rw [ho]
  have hon : ctOn o = .ok false := by unfold ctOn; rw [if_neg he]
  have hrun : ∀ vs : List CVertex, ctMoeaRun opts [] vs = ([], .ok ()) := by
    intro vs
    induction vs with
    | nil => rfl
    | cons v vs ih =>
      unfold ctMoeaRun
      have : ctVertex opts [] v = .ok [] := by
        unfold ctVertex
        split
        · rw [ht]
          show (ctOn o >>= fun on => ctBranchOn v on []) = _
          rw [hon]
          rfl
        · rfl
      rw [this]
      exact ih
  have hob : ctObjectives opts = .ok [] := by
    unfold ctObjectives
    rw [ht]
    show (ctOn o >>= _) = _
    rw [hon]
    rfl
  unfold ctMoea
  rw [hrun, hob]

/-! ## examples -/

def ctExampleParams : List CtParam :=
  [⟨"weight".toList, "year".toList, 0, none, 1⟩, ⟨"input".toList, "year".toList, 0, none, 5⟩, ⟨"output".toList, "year".toList, 0, none, 0⟩,
   ⟨"weight".toList, "day".toList, 1, none, 5⟩, ⟨"input".toList, "day".toList, 1, none, 0⟩, ⟨"output".toList, "day".toList, 1, none, 1⟩,
   ⟨"weight".toList, "weekend".toList, 1, none, 2⟩, ⟨"input".toList, "weekend".toList, 1, none, 0⟩, ⟨"output".toList, "weekend".toList, 1, none, 1⟩]

/-- a complete tree with a connection ends in an exception -/
example : ctModel true [⟨"gen1".toList, ["DC OPF".toList, "BT".toList], ["active power generation".toList, "output".toList]⟩] ctExampleParams = .error .badGet := by decide +kernel
example : ctLevels ctExampleParams ≠ [] ∧ ∀ p ∈ ctExampleParams, p.ref = none := by decide +kernel
example : (ctNodes ctExampleParams).map (fun n => (n.name, n.params.length)) = [("year".toList, 3), ("day".toList, 3), ("weekend".toList, 3)] := by decide +kernel
/-- two names at the first level -/
example : ctLevels (⟨"weight".toList, "dry".toList, 0, none, 1⟩ :: ctExampleParams) = [0, 1] ∧ 2 ≤ (ctNames (⟨"weight".toList, "dry".toList, 0, none, 1⟩ :: ctExampleParams) 0).length := by decide +kernel

def ctExampleBranch (id : String) (new : Bool) : CVertex :=
  ⟨[⟨"ID".toList, .str id.toList, []⟩, ⟨"type".toList, .str "branch".toList, []⟩], [⟨[cNamed "vTEP".toList], .bool new⟩, ⟨[cNamed "CTEP".toList], .dbl 7⟩]⟩

example : ctMoea [⟨"TEP".toList, "fdif".toList, .bool true⟩] [ctExampleBranch "b1" true, ctExampleBranch "b2" false, ctExampleBranch "b3" true] =
    ([⟨"b1".toList, "new branch variable".toList, 0, 1⟩, ⟨"b3".toList, "new branch variable".toList, 0, 1⟩], ["transmission expansion cost".toList]) := by decide +kernel
example : CtTepOn [⟨"TEP".toList, "fdif".toList, .bool true⟩] := ⟨_, rfl, rfl, rfl⟩
example : cIsBranch (ctExampleBranch "b1" true) = true ∧ CtComplete (ctExampleBranch "b1" true) :=
  ⟨by decide +kernel, ⟨_, true, rfl, rfl⟩, fun _ => ⟨_, 7, rfl, rfl⟩, _, rfl⟩

end Pyensys
