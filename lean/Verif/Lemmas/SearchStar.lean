import Verif.Props.SearchKeys
import Verif.Spec.SearchStar

/-!
# The search on a tree of two stages

One root and at least two leaves, interventions without construction time: the exact behaviour of
the search, used for C22, C23 and C57.
-/

namespace Pyensys

theorem TwoStage.good {cfg leaves} (h : TwoStage cfg leaves) : GoodCfg cfg := ⟨h.pool, h.rate⟩

/-- cost of a group as the code adds it up -/
def starGroupCost (g : Group) : Rat := g.foldl (fun s kv => s + kv.2.cost) 0

/-- the row stored for leaf `l` when the root starts `g` and the leaf starts `h` -/
def starRow (cfg : Cfg) (w : Rat) (g : Group) (l : Nat) (h : Group) : Row :=
  ⟨[(0, g), (1, h)],
   (cfg.opf [] ⟨0, g.map (·.2)⟩).2 * 365 + w * ((cfg.opf [] ⟨l, g.map (·.2) ++ h.map (·.2)⟩).2 * 365),
   0 + 1 * starGroupCost g + w * starGroupCost h, [(0, 0), (1, l)]⟩

/-- what can be started at a leaf -/
def StarChoice (cfg : Cfg) (g h : Group) : Prop :=
  h.Sublist (cfg.pool.filter (fun e => !ADC.itemMem g e))

/-- the OPF accepts the leaf -/
def StarFeas (cfg : Cfg) (g : Group) (l : Nat) (h : Group) : Prop :=
  (cfg.opf [] ⟨l, g.map (·.2) ++ h.map (·.2)⟩).1 = true

theorem ready_done {t : Times} {g : Group} (hk : t.map (·.1) = g.map (·.1)) (ht : ∀ e ∈ t, e.2 ≤ 0) :
    builtGroup t g = g := by
  have hlen : t.length = g.length := by
    have := congrArg List.length hk; simpa using this
  unfold builtGroup
  rw [List.filter_eq_self.2]
  · rw [List.map_snd_zip (by omega)]
  · intro p hp
    simp only [decide_eq_true_eq]
    exact ht _ (List.of_mem_zip hp).1

/-- times and interventions of a group without construction time -/
structure DoneTimes (t : Times) (g : Group) : Prop where
  keys : t.map (·.1) = g.map (·.1)
  done : ∀ e ∈ t, e.2 ≤ 0
  nodup : (g.map (·.1)).Nodup

theorem DoneTimes.built {t g} (h : DoneTimes t g) : builtGroup t g = g := ready_done h.keys h.done
theorem DoneTimes.aligned {t g} (h : DoneTimes t g) : GroupAligned t g := ⟨h.keys, h.nodup⟩
theorem DoneTimes.nodupT {t g} (h : DoneTimes t g) : KeysNodup t := by
  unfold KeysNodup; rw [h.keys]; exact h.nodup
theorem DoneTimes.shift {t g} (h : DoneTimes t g) {d : Int} (hd : d ≤ 0) :
    DoneTimes (shiftTimes d t) g := by
  refine ⟨?_, ?_, h.nodup⟩
  · rw [← h.keys]; simp [shiftTimes]
  · intro e he
    obtain ⟨x, hx, rfl⟩ := List.mem_map.1 he
    have := h.done x hx
    show x.2 + d ≤ 0
    omega

/-- a complete candidate of two levels -/
structure StarFull (g h : Group) (l : Nat) (c0 c1 : Rat) (t t' : Times) (info : Info) : Prop where
  path : info.candPath = [(0, 0), (1, l)]
  int : info.candInt = [(0, g), (1, h)]
  op : info.candOp = [(0, c0), (1, c1)]
  time : info.candTime = [(0, t), (1, t')]
  level : info.level = 1
  root : DoneTimes t g
  leaf : DoneTimes t' h

theorem StarFull.built {g h l c0 c1 t t' info} (s : StarFull g h l c0 c1 t t' info) :
    alreadyBuilt info = .ok [(0, g), (1, h)] := by
  rw [alreadyBuilt_eq info]
  · rw [s.time, s.int]
    simp only [builtSol, List.zipWith_cons_cons, List.zipWith_nil_left, s.root.built, s.leaf.built]
  · rw [s.time, s.int]
    exact .cons ⟨rfl, s.root.aligned⟩ (.cons ⟨rfl, s.leaf.aligned⟩ .nil)
  · rw [s.int]; unfold KeysNodup; simp

theorem star_inv {cfg : Cfg} {w : Rat} (hw : levelWeight cfg 1 = .ok w) (g h : Group) :
    investmentCost cfg [(0, g), (1, h)] =
      .ok (0 + 1 * starGroupCost g + w * starGroupCost h) := by
  unfold investmentCost
  have h0 : levelWeight cfg 0 = .ok 1 := by simp [levelWeight]
  simp only [investmentCostFrom, h0, exc_bind_ok, hw, starGroupCost, Nat.zero_add]

theorem star_op {cfg : Cfg} {w : Rat} (hw : levelWeight cfg 1 = .ok w) (c0 c1 : Rat) :
    operationCost cfg [(0, c0), (1, c1)] = .ok (c0 + w * c1) := by
  unfold operationCost
  simp [operationCostFrom, exc_bind_ok, hw]

/-- incumbent while leaf `l` is treated: rows of the earlier leaves and the best one so far -/
def starCur (R0 : List (Int × Row)) : Option Row → List (Int × Row)
  | none => R0
  | some r => R0 ++ [((R0.length : Int), r)]

/-- the better one of the stored row and a new one -/
def starBest : Option Row → Row → Row
  | none, row => row
  | some r, row => if r.inv + r.op > row.inv + row.op then row else r

/-- what is known of the rows of the earlier leaves -/
structure StarDone (done : List Nat) (R0 : List (Int × Row)) : Prop where
  keys : R0.map (·.1) = ints R0.length
  paths : R0.map (·.2.path) = done.map (fun d => [((0 : Int), 0), (1, d)])

theorem starPath_contains (a b : Nat) :
    pathContains [((0 : Int), 0), (1, a)] [(0, 0), (1, b)] = true ↔ b = a := by
  rw [pathContains_iff_subset]
  constructor
  · intro h
    have := h (1, b) (by simp)
    simpa using this
  · rintro rfl; intro e he; exact he

theorem StarDone.find {done R0 l} (hd : StarDone done R0) (hl : l ∉ done) :
    (col Row.path R0).find? (fun kp => pathContains kp.2 [(0, 0), (1, l)]) = none := by
  rw [List.find?_eq_none]
  intro x hx
  obtain ⟨e, he, rfl⟩ := List.mem_map.1 hx
  have : e.2.path ∈ R0.map (·.2.path) := List.mem_map.2 ⟨e, he, rfl⟩
  rw [hd.paths] at this
  obtain ⟨d, hdm, hde⟩ := List.mem_map.1 this
  show ¬ pathContains e.2.path _ = true
  rw [← hde, starPath_contains]
  rintro rfl; exact hl hdm

theorem starCur_append (R0 : List (Int × Row)) (done : List Nat) (hd : StarDone done R0) (r : Row)
    (l : Nat) (hp : r.path = [(0, 0), (1, l)]) : StarDone (done ++ [l]) (starCur R0 (some r)) := by
  constructor
  · simp only [starCur, List.map_append, List.length_append, List.length_singleton]
    rw [ints_succ, hd.keys]; rfl
  · simp only [starCur, List.map_append, hd.paths, List.map_cons, List.map_nil, hp]

theorem ints_fresh {R0 : List (Int × Row)} (hk : R0.map (·.1) = ints R0.length) :
    ∀ e ∈ R0, e.1 ≠ (R0.length : Int) := by
  intro e he h
  have : e.1 ∈ R0.map (·.1) := List.mem_map.2 ⟨e, he, rfl⟩
  rw [hk, mem_ints] at this
  omega

theorem star_get {R0 : List (Int × Row)} (hk : R0.map (·.1) = ints R0.length) (r : Row) :
    listGet? (R0 ++ [((R0.length : Int), r)]) (R0.length : Int) = some r := by
  unfold listGet?
  rw [List.find?_append, List.find?_eq_none.2]
  · simp
  · intro e he
    simpa using ints_fresh hk e he

theorem star_set {R0 : List (Int × Row)} (hk : R0.map (·.1) = ints R0.length) (r r' : Row) :
    listSet (R0 ++ [((R0.length : Int), r)]) (R0.length : Int) r' =
      R0 ++ [((R0.length : Int), r')] := by
  unfold listSet
  rw [List.map_append]
  congr 1
  · conv_rhs => rw [← List.map_id R0]
    apply List.map_congr_left
    intro e he
    rw [if_neg (ints_fresh hk e he)]; rfl
  · simp

/-! ### nodes that remain -/

theorem mem_remaining_fold (L : List (Int × Path)) (r : List Nat) (hr : r.Nodup) (n : Nat) :
    (L.foldl (fun r kp => kp.2.foldl (fun r pn =>
        if r.contains pn.2 then r.erase pn.2 else r) r) r).Nodup ∧
    (n ∈ L.foldl (fun r kp => kp.2.foldl (fun r pn =>
        if r.contains pn.2 then r.erase pn.2 else r) r) r ↔
      n ∈ r ∧ ∀ kp ∈ L, n ∉ kp.2.map (·.2)) := by
  have inner : ∀ (p : Path) (r : List Nat), r.Nodup →
      (p.foldl (fun r pn => if r.contains pn.2 then r.erase pn.2 else r) r).Nodup ∧
      (n ∈ p.foldl (fun r pn => if r.contains pn.2 then r.erase pn.2 else r) r ↔
        n ∈ r ∧ n ∉ p.map (·.2)) := by
    intro p
    induction p with
    | nil => intro r hr; exact ⟨hr, by simp⟩
    | cons x p ih =>
      intro r hr
      rw [List.foldl_cons]
      by_cases hc : r.contains x.2
      · rw [if_pos hc]
        obtain ⟨h1, h2⟩ := ih (r.erase x.2) (hr.erase _)
        refine ⟨h1, ?_⟩
        rw [h2, hr.mem_erase_iff, List.map_cons, List.mem_cons, not_or]
        constructor
        · rintro ⟨⟨a, b⟩, c⟩; exact ⟨b, a, c⟩
        · rintro ⟨a, b, c⟩; exact ⟨⟨b, a⟩, c⟩
      · rw [if_neg hc]
        obtain ⟨h1, h2⟩ := ih r hr
        refine ⟨h1, ?_⟩
        rw [h2, List.map_cons, List.mem_cons, not_or]
        constructor
        · rintro ⟨a, b⟩
          refine ⟨a, ?_, b⟩
          rintro rfl
          exact hc (by simpa using a)
        · rintro ⟨a, _, c⟩; exact ⟨a, c⟩
  induction L generalizing r with
  | nil => exact ⟨hr, by simp⟩
  | cons x L ih =>
    rw [List.foldl_cons]
    obtain ⟨h1, h2⟩ := inner x.2 r hr
    obtain ⟨h3, h4⟩ := ih _ h1
    refine ⟨h3, ?_⟩
    rw [h4, h2]
    constructor
    · rintro ⟨⟨a, b⟩, c⟩
      refine ⟨a, ?_⟩
      intro kp hkp
      rcases List.mem_cons.1 hkp with rfl | hkp
      · exact b
      · exact c kp hkp
    · rintro ⟨a, b⟩
      exact ⟨⟨a, b x (by simp)⟩, fun kp hkp => b kp (by simp [hkp])⟩

theorem star_remaining {cfg leaves} (ts : TwoStage cfg leaves) {info R P C done l}
    (h : Stored info R P C) (hd : StarDone (done ++ [l]) R) :
    remainingNodes cfg info = [] ↔ ∀ x ∈ leaves, x ∈ done ∨ x = l := by
  have key : ∀ n, n ∈ remainingNodes cfg info ↔
      n ∈ cfg.nodes ∧ n ≠ 0 ∧ n ∉ done ++ [l] := by
    intro n
    unfold remainingNodes
    rw [(mem_remaining_fold info.incPaths cfg.nodes ts.nodes n).2, h.incPaths]
    have : (∀ kp ∈ col Row.path R, n ∉ kp.2.map (·.2)) ↔
        ∀ p ∈ R.map (·.2.path), n ∉ p.map (·.2) := by
      constructor
      · intro hh p hp
        obtain ⟨e, he, rfl⟩ := List.mem_map.1 hp
        exact hh (e.1, e.2.path) (List.mem_map.2 ⟨e, he, rfl⟩)
      · intro hh kp hkp
        obtain ⟨e, he, rfl⟩ := List.mem_map.1 hkp
        exact hh _ (List.mem_map.2 ⟨e, he, rfl⟩)
    rw [this, hd.paths]
    constructor
    · rintro ⟨a, b⟩
      refine ⟨a, ?_, ?_⟩
      · have := b _ (List.mem_map.2 ⟨l, by simp, rfl⟩)
        simp at this
        exact this.1
      · intro hm
        have := b _ (List.mem_map.2 ⟨n, hm, rfl⟩)
        simp at this
    · rintro ⟨a, b, c⟩
      refine ⟨a, ?_⟩
      intro p hp
      obtain ⟨d, hdm, rfl⟩ := List.mem_map.1 hp
      simp only [List.map_cons, List.map_nil, List.mem_cons, List.not_mem_nil, or_false, not_or]
      exact ⟨b, fun hnd => c (hnd ▸ hdm)⟩
  rw [List.eq_nil_iff_forall_not_mem]
  constructor
  · intro hh x hx
    by_contra hno
    rw [not_or] at hno
    apply hh x
    rw [key]
    refine ⟨(ts.memNodes x).2 (Or.inr hx), ?_, ?_⟩
    · rintro rfl; exact ts.zero hx
    · simp only [List.mem_append, List.mem_singleton, not_or]; exact hno
  · intro hh n hn
    rw [key] at hn
    rcases (ts.memNodes n).1 hn.1 with h0 | hm
    · exact hn.2.1 h0
    · apply hn.2.2
      simp only [List.mem_append, List.mem_singleton]
      exact hh n hm

/-! ### one combination at a leaf -/

/-- what recording a complete plan does, if the tree is covered -/
structure StarRecord (R' C C' : List (Int × Row)) : Prop where
  some : C' ≠ []
  le : totalCost C' ≤ totalCost R'
  either : C' = R' ∨ C' = C
  old : C ≠ [] → totalCost C' ≤ totalCost C

theorem star_optimality {cfg leaves} (ts : TwoStage cfg leaves) {w : Rat}
    (hw : levelWeight cfg 1 = .ok w) {g h : Group} {l : Nat} {c0 c1 : Rat} {t t' : Times} {X : Info}
    (s : StarFull g h l c0 c1 t t' X) {done R0 best C} (hd : StarDone done R0) (hl : l ∉ done)
    (hbest : ∀ r, best = some r → r.path = [(0, 0), (1, l)])
    (hlast : (∀ x ∈ leaves, x ∈ done ∨ x = l) → R0 ≠ [])
    (hst : Stored X (starCur R0 best) [] C) :
    ∃ b C', optimalityCheck cfg X = .ok b ∧
      Stored b (starCur R0 (some (starBest best ⟨[(0, g), (1, h)], c0 + w * c1,
        0 + 1 * starGroupCost g + w * starGroupCost h, [(0, 0), (1, l)]⟩))) [] C' ∧
      b.candPath = [(0, 0)] ∧ b.candInt = [(0, g)] ∧ b.candOp = [(0, c0)] ∧ b.candTime = [(0, t)] ∧
      b.newInt = X.newInt ∧ b.newTime = X.newTime ∧ b.node = X.node ∧ b.level = X.level ∧
      b.lastReached = X.lastReached ∧
      ((∀ x ∈ leaves, x ∈ done ∨ x = l) → b.allowDel = true ∧
        StarRecord (starCur R0 (some (starBest best ⟨[(0, g), (1, h)], c0 + w * c1,
          0 + 1 * starGroupCost g + w * starGroupCost h, [(0, 0), (1, l)]⟩))) C C') ∧
      (¬ (∀ x ∈ leaves, x ∈ done ∨ x = l) → C' = C) := by
  set row : Row := ⟨[(0, g), (1, h)], c0 + w * c1,
    0 + 1 * starGroupCost g + w * starGroupCost h, [(0, 0), (1, l)]⟩ with hrow
  have hbuilt := s.built
  have hinv := star_inv (cfg := cfg) hw g h
  have hinv' : investmentCost cfg X.candInt =
      .ok (0 + 1 * starGroupCost g + w * starGroupCost h) := by rw [s.int]; exact hinv
  have hop : operationCost cfg X.candOp = .ok (c0 + w * c1) := by
    rw [s.op]; exact star_op (cfg := cfg) hw c0 c1
  have happ : ∀ key : Int, ∃ i, appendCandidate cfg key X = .ok i ∧
      Stored i (starCur R0 best ++ [(key, row)]) [] C ∧ SameRest X i := by
    intro key
    unfold appendCandidate
    rw [hbuilt, exc_bind_ok, hinv', exc_bind_ok, hop, exc_bind_ok]
    refine ⟨_, rfl, ⟨?_, hst.part, hst.comp⟩, by constructor <;> rfl⟩
    show (⟨X.incInt ++ _, X.incOp ++ _, X.incInv ++ _, X.incPaths ++ _⟩ : Plan) = _
    rw [hst.incInt, hst.incOp, hst.incInv, hst.incPaths, s.path]
    simp [planOf, col, hrow]
  -- the store step
  have hstore : ∃ i, (if X.incPaths.length = 0 then appendCandidate cfg 0 X
      else (match storedKey X with
          | none => appendCandidate cfg X.incPaths.length X
          | some k => replaceIfBetter cfg k X)) = .ok i ∧
      Stored i (starCur R0 (some (starBest best row))) [] C ∧ SameRest X i := by
    have hlenP : X.incPaths.length = (starCur R0 best).length := by rw [hst.incPaths, length_col]
    cases best with
    | none =>
      have hR : starCur R0 none = R0 := rfl
      by_cases hz : X.incPaths.length = 0
      · rw [if_pos hz]
        have h0 : R0.length = 0 := by rw [hlenP] at hz; exact hz
        obtain ⟨i, h1, h2, h3⟩ := happ 0
        refine ⟨i, h1, ?_, h3⟩
        have : starCur R0 none ++ [((0 : Int), row)] = starCur R0 (some (starBest none row)) := by
          simp [starCur, starBest, h0]
        rw [← this]; exact h2
      · rw [if_neg hz]
        have hk : storedKey X = none := by
          unfold storedKey
          rw [hst.incPaths, s.path, hR, hd.find hl]; rfl
        rw [hk]
        obtain ⟨i, h1, h2, h3⟩ := happ X.incPaths.length
        refine ⟨i, ?_, ?_, h3⟩
        · exact h1
        · have : starCur R0 none ++ [((X.incPaths.length : Int), row)] =
              starCur R0 (some (starBest none row)) := by
            rw [hlenP]; rfl
          rw [← this]; exact h2
    | some r =>
      have hR : starCur R0 (some r) = R0 ++ [((R0.length : Int), r)] := rfl
      have hz : ¬ X.incPaths.length = 0 := by rw [hlenP, hR]; simp
      rw [if_neg hz]
      have hk : storedKey X = some (R0.length : Int) := by
        unfold storedKey
        rw [hst.incPaths, s.path, hR, col_append, List.find?_append, hd.find hl]
        have : pathContains r.path [((0 : Int), 0), (1, l)] = true := by
          rw [hbest r rfl, starPath_contains]
        simp [col, this]
      rw [hk]
      show ∃ i, replaceIfBetter cfg (R0.length : Int) X = .ok i ∧ _
      have hget1 : listGet? X.incInv (R0.length : Int) = some r.inv := by
        rw [hst.incInv, listGet?_col, hR, star_get hd.keys]; rfl
      have hget2 : listGet? X.incOp (R0.length : Int) = some r.op := by
        rw [hst.incOp, listGet?_col, hR, star_get hd.keys]; rfl
      unfold replaceIfBetter
      rw [hbuilt, exc_bind_ok, hinv, exc_bind_ok, hop, exc_bind_ok, hget1, hget2]
      by_cases hlt : r.inv + r.op > row.inv + row.op
      · have hb : starBest (some r) row = row := by simp only [starBest]; rw [if_pos hlt]
        rw [hb]
        simp only
        rw [if_pos (show r.inv + r.op > (0 + 1 * starGroupCost g + w * starGroupCost h) +
          (c0 + w * c1) from hlt)]
        refine ⟨_, rfl, ⟨?_, hst.part, hst.comp⟩, by constructor <;> rfl⟩
        have hS : starCur R0 (some row) = listSet (starCur R0 (some r)) (R0.length : Int) row := by
          rw [hR, star_set hd.keys]; rfl
        rw [hS]
        show (⟨listSet X.incInt _ _, listSet X.incOp _ _, listSet X.incInv _ _,
          listSet X.incPaths _ _⟩ : Plan) = _
        rw [hst.incInt, hst.incOp, hst.incInv, hst.incPaths, s.path]
        simp only [planOf, ← listSet_col]
        rfl
      · have hb : starBest (some r) row = r := by simp only [starBest]; rw [if_neg hlt]
        rw [hb]
        simp only
        rw [if_neg (show ¬ r.inv + r.op > (0 + 1 * starGroupCost g + w * starGroupCost h) +
          (c0 + w * c1) from hlt)]
        exact ⟨_, rfl, hst, SameRest.refl _⟩
  obtain ⟨i, hi, hsi, hri⟩ := hstore
  -- the tree step
  have hbp : (starBest best row).path = [(0, 0), (1, l)] := by
    cases best with
    | none => rfl
    | some r =>
      simp only [starBest]
      split
      · rfl
      · exact hbest r rfl
  have hrem := star_remaining ts hsi (starCur_append R0 done hd _ l hbp)
  have htree : ∃ j C', (if X.incPaths.length = 0 then appendCandidate cfg 0 X
        else optimalityNonEmpty cfg X) = .ok j ∧
      Stored j (starCur R0 (some (starBest best row))) [] C' ∧ SameRest X j ∧
      ((∀ x ∈ leaves, x ∈ done ∨ x = l) → j.allowDel = true ∧
        StarRecord (starCur R0 (some (starBest best row))) C C') ∧
      (¬ (∀ x ∈ leaves, x ∈ done ∨ x = l) → C' = C) := by
    by_cases hz : X.incPaths.length = 0
    · rw [if_pos hz] at hi ⊢
      refine ⟨i, C, hi, hsi, hri, ?_, fun _ => rfl⟩
      intro hl'
      exfalso
      have := hlast hl'
      rw [hst.incPaths, length_col] at hz
      apply this
      cases best with
      | none => exact List.eq_nil_of_length_eq_zero hz
      | some r => simp [starCur] at hz
    · rw [if_neg hz] at hi ⊢
      have hopt : optimalityNonEmpty cfg X =
          (if remainingNodes cfg i = [] then replaceTree { i with allowDel := true } else pure i) := by
        unfold optimalityNonEmpty
        cases hk : storedKey X with
        | none =>
          rw [hk] at hi
          change appendCandidate cfg X.incPaths.length X = .ok i at hi
          show (appendCandidate cfg X.incPaths.length X >>= _) = _
          rw [hi]; rfl
        | some k =>
          rw [hk] at hi
          change replaceIfBetter cfg k X = .ok i at hi
          show (replaceIfBetter cfg k X >>= _) = _
          rw [hi]; rfl
      rw [hopt]
      by_cases hall : ∀ x ∈ leaves, x ∈ done ∨ x = l
      · rw [if_pos (hrem.2 hall)]
        have hsA : Stored { i with allowDel := true } (starCur R0 (some (starBest best row))) [] C :=
          ⟨hsi.inc, hsi.part, hsi.comp⟩
        obtain ⟨j, C', h1, h2, h3, h4, h5⟩ := replaceTree_spec hsA
        refine ⟨j, C', h1, h2, ?_, ?_, ?_⟩
        · exact hri.trans (SameRest.trans (by constructor <;> rfl) h4)
        · intro _
          refine ⟨h5, ?_⟩
          rcases h3 with ⟨rfl, h3⟩ | ⟨rfl, h3, h3'⟩
          · refine ⟨by simp [starCur], le_refl _, Or.inl rfl, ?_⟩
            intro hne
            rcases h3 with h3 | h3
            · exact absurd h3 hne
            · exact le_of_lt h3
          · exact ⟨h3, h3', Or.inr rfl, fun _ => le_refl _⟩
        · intro hno; exact absurd hall hno
      · rw [if_neg (fun hc => hall (hrem.1 hc))]
        exact ⟨i, C, rfl, hsi, hri, fun hc => absurd hc hall, fun _ => rfl⟩
  obtain ⟨j, C', hj, hsj, hrj, hA, hB⟩ := htree
  unfold optimalityCheck
  have hopc : (do
      let info ← if X.incPaths.length = 0 then appendCandidate cfg 0 X else optimalityNonEmpty cfg X
      returnToPrevious info : Except PyErr Info) = returnToPrevious j := by
    by_cases hz : X.incPaths.length = 0
    · rw [if_pos hz] at hj ⊢
      rw [hj]; rfl
    · rw [if_neg hz] at hj ⊢
      rw [hj]; rfl
  rw [hopc]
  unfold returnToPrevious
  have e1 : popOnly j.candInt j.level = .ok [(0, g)] := by
    rw [hrj.candInt, s.int, hrj.level, s.level]
    exact popOnly_append_self [((0 : Int), g)] 1 h
  have e2 : popOnly j.candTime j.level = .ok [(0, t)] := by
    rw [hrj.candTime, s.time, hrj.level, s.level]
    exact popOnly_append_self [((0 : Int), t)] 1 t'
  have e3 : popOnly j.candOp j.level = .ok [(0, c0)] := by
    rw [hrj.candOp, s.op, hrj.level, s.level]
    exact popOnly_append_self [((0 : Int), c0)] 1 c1
  have e4 : popOnly j.candPath ((j.candPath.length : Int) - 1) = .ok [(0, 0)] := by
    rw [hrj.candPath, s.path]
    exact popOnly_append_self [((0 : Int), 0)] 1 l
  rw [e1, exc_bind_ok, e2, exc_bind_ok, e3, exc_bind_ok, e4, exc_bind_ok]
  exact ⟨_, C', rfl, ⟨hsj.inc, hsj.part, hsj.comp⟩, rfl, rfl, rfl, rfl, hrj.newInt, hrj.newTime,
    hrj.node, hrj.level, hrj.lastReached, hA, hB⟩

/-- the search stands at leaf `l` after deciding `g` at the root -/
structure StarLeaf (cfg : Cfg) (g : Group) (l : Nat) (info : Info) : Prop where
  path : info.candPath = [(0, 0)]
  int : info.candInt = [(0, g)]
  op : info.candOp = [(0, (cfg.opf [] ⟨0, g.map (·.2)⟩).2 * 365)]
  time : ∃ t, info.candTime = [(0, t)] ∧ DoneTimes t g
  level : info.level = 1
  node : info.node = l
  newInt : info.newInt = []
  newTime : info.newTime = []
  last : info.lastReached = true

/-- one combination tried at a leaf -/
def tryCombo (cfg : Cfg) (info : Info) (h : Group) : Except PyErr (Bool × Info) := do
  let (f, i) ← checkFeasibility cfg (addNew info h)
  if f then do
    let i ← optimalityCheck cfg (construct i)
    return (true, i)
  else return (false, i)

/-- the state of the search at leaf `l`, when the combinations `tried` have been tried -/
structure StarAt (cfg : Cfg) (leaves : List Nat) (w : Rat) (g : Group) (l : Nat) (done : List Nat)
    (R0 C0 : List (Int × Row)) (tried : Group → Prop) (info : Info) (best : Option Group)
    (C : List (Int × Row)) : Prop where
  leaf : StarLeaf cfg g l info
  stored : Stored info (starCur R0 (best.map (starRow cfg w g l))) [] C
  noBest : best = none → ∀ h, tried h → ¬ StarFeas cfg g l h
  isBest : ∀ h, best = some h → StarChoice cfg g h ∧ StarFeas cfg g l h ∧
    ∀ h', tried h' → StarFeas cfg g l h' →
      (starRow cfg w g l h).inv + (starRow cfg w g l h).op ≤
        (starRow cfg w g l h').inv + (starRow cfg w g l h').op
  notLast : ¬ (∀ x ∈ leaves, x ∈ done ∨ x = l) → C = C0
  last : (∀ x ∈ leaves, x ∈ done ∨ x = l) → best ≠ none → info.allowDel = true ∧ C ≠ [] ∧
    totalCost C ≤ totalCost (starCur R0 (best.map (starRow cfg w g l)))
  fromOld : C = C0 ∨ ∃ h, StarChoice cfg g h ∧ StarFeas cfg g l h ∧
    (∀ x ∈ leaves, x ∈ done ∨ x = l) ∧ C = starCur R0 (some (starRow cfg w g l h))
  old : C0 ≠ [] → C ≠ [] ∧ totalCost C ≤ totalCost C0

theorem starChoice_nodup {cfg leaves} (ts : TwoStage cfg leaves) {g h : Group}
    (hc : StarChoice cfg g h) : (h.map (·.1)).Nodup :=
  ((hc.trans List.filter_sublist).map _).nodup ts.pool

theorem addNew_done {cfg leaves} (ts : TwoStage cfg leaves) {h : Group} (hs : h.Sublist cfg.pool) :
    DoneTimes (h.map (fun kv => (kv.1, kv.2.installationTime))) h := by
  refine ⟨by simp [Function.comp_def], ?_, (hs.map _).nodup ts.pool⟩
  intro e he
  obtain ⟨x, hx, rfl⟩ := List.mem_map.1 he
  exact ts.instant x (hs.subset hx)

theorem star_try {cfg leaves} (ts : TwoStage cfg leaves) {w : Rat} (hw : levelWeight cfg 1 = .ok w)
    {g : Group} {l : Nat} {done R0 C0 tried info best C} (hd : StarDone done R0) (hl : l ∉ done)
    (hlast : (∀ x ∈ leaves, x ∈ done ∨ x = l) → R0 ≠ [])
    (s : StarAt cfg leaves w g l done R0 C0 tried info best C) {h : Group}
    (hc : StarChoice cfg g h) :
    ∃ f b best' C', tryCombo cfg info h = .ok (f, b) ∧ b.newInt = h ∧
      b.newTime = h.map (fun kv => (kv.1, kv.2.installationTime)) ∧
      StarAt cfg leaves w g l done R0 C0 (fun x => tried x ∨ x = h) (clearNew b) best' C' ∧
      best'.isSome = (best.isSome || f) := by
  obtain ⟨t, ht, htd⟩ := s.leaf.time
  have hnew := addNew_done ts (hc.trans List.filter_sublist)
  have hready : ready (addNew info h) = .ok (g.map (·.2) ++ h.map (·.2)) := by
    rw [ready_eq]
    · show Except.ok ((builtSol info.candTime info.candInt).flatMap (fun kg => kg.2.map (·.2)) ++
        (builtGroup (h.map (fun kv => (kv.1, kv.2.installationTime))) h).map (·.2)) = _
      rw [ht, s.leaf.int, hnew.built]
      simp only [builtSol, List.zipWith_cons_cons, List.zipWith_nil_left, htd.built]
      simp
    · show SolAligned info.candTime info.candInt
      rw [ht, s.leaf.int]
      exact .cons ⟨rfl, htd.aligned⟩ .nil
  unfold tryCombo checkFeasibility
  rw [hready, exc_bind_ok]
  have hopf : cfg.opf (addNew info h).log ⟨(addNew info h).node, g.map (·.2) ++ h.map (·.2)⟩ =
      cfg.opf [] ⟨l, g.map (·.2) ++ h.map (·.2)⟩ := by
    have : (addNew info h).node = l := s.leaf.node
    rw [this]
    exact ts.opf _ _ _ _ (List.Perm.refl _)
  simp only [hopf]
  generalize hlog : (addNew info h).log ++
    [(⟨(addNew info h).node, g.map (·.2) ++ h.map (·.2)⟩ : Request)] = log'
  cases hf : (cfg.opf [] ⟨l, g.map (·.2) ++ h.map (·.2)⟩).1 with
  | false =>
    refine ⟨false, _, best, C, rfl, rfl, rfl, ?_, by simp⟩
    refine ⟨⟨s.leaf.path, s.leaf.int, s.leaf.op, s.leaf.time, s.leaf.level, s.leaf.node, rfl, rfl,
      s.leaf.last⟩, ⟨s.stored.inc, s.stored.part, s.stored.comp⟩, ?_, ?_, s.notLast, s.last,
      s.fromOld, s.old⟩
    · intro hb x hx
      rcases hx with hx | rfl
      · exact s.noBest hb x hx
      · intro hfe; unfold StarFeas at hfe; rw [hf] at hfe; cases hfe
    · intro x hx
      obtain ⟨h1, h2, h3⟩ := s.isBest x hx
      refine ⟨h1, h2, ?_⟩
      intro h' ht' hfe
      rcases ht' with ht' | rfl
      · exact h3 h' ht' hfe
      · unfold StarFeas at hfe; rw [hf] at hfe; cases hfe
  | true =>
    let X : Info := construct { addNew info h with
      log := log', lastCost := (cfg.opf [] ⟨l, g.map (·.2) ++ h.map (·.2)⟩).2 }
    have hX : StarFull g h l ((cfg.opf [] ⟨0, g.map (·.2)⟩).2 * 365)
        ((cfg.opf [] ⟨l, g.map (·.2) ++ h.map (·.2)⟩).2 * 365) t
        (h.map (fun kv => (kv.1, kv.2.installationTime))) X := by
      refine ⟨?_, ?_, ?_, ?_, s.leaf.level, htd, hnew⟩
      · show info.candPath ++ [((info.candPath.length : Int), info.node)] = _
        rw [s.leaf.path, s.leaf.node]; rfl
      · show info.candInt ++ [(info.level, h)] = _
        rw [s.leaf.int, s.leaf.level]; rfl
      · show info.candOp ++ [(info.level, _)] = _
        rw [s.leaf.op, s.leaf.level]; rfl
      · show info.candTime ++ [(info.level, _)] = _
        rw [ht, s.leaf.level]; rfl
    have hstX : Stored X (starCur R0 (best.map (starRow cfg w g l))) [] C :=
      ⟨s.stored.inc, s.stored.part, s.stored.comp⟩
    have hbest : ∀ r, best.map (starRow cfg w g l) = some r → r.path = [(0, 0), (1, l)] := by
      intro r hr
      cases best with
      | none => cases hr
      | some x => cases hr; rfl
    obtain ⟨b, C', h1, h2, h3, h4, h5, h6, h7, h8, h9, h10, h11, h12, h13⟩ :=
      star_optimality ts hw hX hd hl hbest hlast hstX
    have hrowEq : (⟨[(0, g), (1, h)], (cfg.opf [] ⟨0, g.map (·.2)⟩).2 * 365 +
        w * ((cfg.opf [] ⟨l, g.map (·.2) ++ h.map (·.2)⟩).2 * 365),
        0 + 1 * starGroupCost g + w * starGroupCost h, [(0, 0), (1, l)]⟩ : Row) =
        starRow cfg w g l h := rfl
    rw [hrowEq] at h2 h12
    -- the new best choice
    have hnb : ∃ hb, starBest (best.map (starRow cfg w g l)) (starRow cfg w g l h) =
        starRow cfg w g l hb ∧ StarChoice cfg g hb ∧ StarFeas cfg g l hb ∧
        ∀ h', (tried h' ∨ h' = h) → StarFeas cfg g l h' →
          (starRow cfg w g l hb).inv + (starRow cfg w g l hb).op ≤
            (starRow cfg w g l h').inv + (starRow cfg w g l h').op := by
      cases best with
      | none =>
        refine ⟨h, rfl, hc, hf, ?_⟩
        intro h' ht' hfe
        rcases ht' with ht' | rfl
        · exact absurd hfe (s.noBest rfl h' ht')
        · exact le_refl _
      | some x =>
        obtain ⟨k1, k2, k3⟩ := s.isBest x rfl
        show ∃ hb, starBest (some (starRow cfg w g l x)) (starRow cfg w g l h) = _ ∧ _
        simp only [starBest]
        split
        · next hgt =>
          refine ⟨h, rfl, hc, hf, ?_⟩
          intro h' ht' hfe
          rcases ht' with ht' | rfl
          · exact le_trans (le_of_lt hgt) (k3 h' ht' hfe)
          · exact le_refl _
        · next hgt =>
          refine ⟨x, rfl, k1, k2, ?_⟩
          intro h' ht' hfe
          rcases ht' with ht' | rfl
          · exact k3 h' ht' hfe
          · exact not_lt.1 hgt
    obtain ⟨hb, e1, e2, e3, e4⟩ := hnb
    rw [e1] at h2 h12
    refine ⟨true, b, some hb, C', ?_, h7, h8, ?_, by simp⟩
    · show (optimalityCheck cfg X >>= fun i => pure (true, i)) = _
      rw [h1]; rfl
    · refine ⟨⟨h3, h4, h5, ⟨t, h6, htd⟩, h10.trans s.leaf.level, h9.trans s.leaf.node, rfl, rfl,
        h11.trans s.leaf.last⟩, ⟨h2.inc, h2.part, h2.comp⟩, ?_, ?_, ?_, ?_, ?_, ?_⟩
      · intro hno; cases hno
      · intro x hx; cases hx; exact ⟨e2, e3, e4⟩
      · intro hno; rw [h13 hno]; exact s.notLast hno
      · intro hall _
        obtain ⟨q1, q2⟩ := h12 hall
        exact ⟨q1, q2.some, q2.le⟩
      · by_cases hall : ∀ x ∈ leaves, x ∈ done ∨ x = l
        · rcases (h12 hall).2.either with hC | hC
          · exact Or.inr ⟨hb, e2, e3, hall, hC⟩
          · rw [hC]; exact s.fromOld
        · rw [h13 hall]; exact s.fromOld
      · intro h0
        obtain ⟨q1, q2⟩ := s.old h0
        by_cases hall : ∀ x ∈ leaves, x ∈ done ∨ x = l
        · exact ⟨(h12 hall).2.some, le_trans ((h12 hall).2.old q1) q2⟩
        · rw [h13 hall]; exact ⟨q1, q2⟩

theorem lastNodeStep_try {cfg : Cfg} {acc : Bool} {info b : Info} {h : Group} {f : Bool}
    (ht : tryCombo cfg info h = .ok (f, b)) :
    lastNodeStep cfg (acc, info) h = .ok (acc || f, clearNew b) := by
  unfold tryCombo at ht
  unfold lastNodeStep
  obtain ⟨⟨f1, i⟩, h1, h2⟩ := exc_bind_eq_ok.1 ht
  rw [h1, exc_bind_ok]
  cases f1 with
  | false =>
    simp only [Bool.false_eq_true, if_false, exc_pure, Except.ok.injEq, Prod.mk.injEq] at h2 ⊢
    obtain ⟨rfl, rfl⟩ := h2
    simp
  | true =>
    simp only [if_true] at h2 ⊢
    obtain ⟨j, h3, h4⟩ := exc_bind_eq_ok.1 h2
    rw [h3]
    simp only [exc_pure, Except.ok.injEq, Prod.mk.injEq] at h4
    obtain ⟨rfl, rfl⟩ := h4
    simp [exc_pure]

theorem star_leafFold {cfg leaves} (ts : TwoStage cfg leaves) {w : Rat}
    (hw : levelWeight cfg 1 = .ok w) {g : Group} {l : Nat} {done R0 C0} (hd : StarDone done R0)
    (hl : l ∉ done) (hlast : (∀ x ∈ leaves, x ∈ done ∨ x = l) → R0 ≠ []) (cs : List Group) :
    ∀ (tried : Group → Prop) (acc : Bool) (info : Info) (best : Option Group) (C : List (Int × Row)),
      StarAt cfg leaves w g l done R0 C0 tried info best C →
      (∀ c ∈ cs, StarChoice cfg g c) →
      ∃ f b best' C', cs.foldlM (lastNodeStep cfg) (acc, info) = .ok (acc || f, b) ∧
        StarAt cfg leaves w g l done R0 C0 (fun x => tried x ∨ x ∈ cs) b best' C' ∧
        best'.isSome = (best.isSome || f) := by
  induction cs with
  | nil =>
    intro tried acc info best C s _
    refine ⟨false, info, best, C, by simp [exc_pure], ?_, by simp⟩
    have : (fun x => tried x ∨ x ∈ ([] : List Group)) = tried := by
      funext x; simp
    rw [this]; exact s
  | cons c cs ih =>
    intro tried acc info best C s hcs
    obtain ⟨f, b, best', C', h1, _, _, h2, h3⟩ := star_try ts hw hd hl hlast s (hcs c (by simp))
    obtain ⟨f2, b2, best2, C2, h4, h5, h6⟩ := ih _ (acc || f) (clearNew b) best' C' h2
      (fun x hx => hcs x (by simp [hx]))
    refine ⟨f || f2, b2, best2, C2, ?_, ?_, ?_⟩
    · rw [List.foldlM_cons, lastNodeStep_try h1, exc_bind_ok, h4, Bool.or_assoc]
    · have : (fun x => tried x ∨ x ∈ c :: cs) = (fun x => (tried x ∨ x = c) ∨ x ∈ cs) := by
        funext x; simp [or_assoc]
      rw [this]; exact h5
    · rw [h6, h3, Bool.or_assoc]

theorem star_available {cfg leaves} (ts : TwoStage cfg leaves) {g : Group} {l : Nat} {info : Info}
    (s : StarLeaf cfg g l info) :
    availableNow cfg info = .ok (cfg.pool.filter (fun e => !ADC.itemMem g e)) := by
  rw [availableNow_eq ts.good, available_eq, s.int, s.newInt, List.filter_filter]
  congr 1
  apply List.filter_congr
  intro e he
  have := ts.instant e he
  simp [ADC.itemMem, this]

theorem star_solveLeaf {cfg leaves} (ts : TwoStage cfg leaves) {w : Rat}
    (hw : levelWeight cfg 1 = .ok w) {g : Group} {l : Nat} {done R0 C0} (hd : StarDone done R0)
    (hl : l ∉ done) (hlast : (∀ x ∈ leaves, x ∈ done ∨ x = l) → R0 ≠ []) {info : Info}
    (s : StarLeaf cfg g l { info with lastReached := true }) (hst : Stored info R0 [] C0) :
    ∃ i best C, solveLeaf cfg info = .ok (best.isSome, { i with level := i.level - 1 }) ∧
      StarAt cfg leaves w g l done R0 C0 (fun h => StarChoice cfg g h) i best C := by
  let I : Info := { info with lastReached := true }
  have s0 : StarAt cfg leaves w g l done R0 C0 (fun _ => False) I none C0 :=
    ⟨s, ⟨hst.inc, hst.part, hst.comp⟩, fun _ _ h => h.elim, (fun _ h => by cases h), fun _ => rfl,
      fun _ h => absurd rfl h, Or.inl rfl, fun h => ⟨h, le_refl _⟩⟩
  obtain ⟨f, b, best, C, h1, hn1, hn2, h2, h3⟩ := star_try ts hw hd hl hlast s0
    (h := []) (List.nil_sublist _)
  have hcl : clearNew b = b := by
    unfold clearNew
    have e1 : b.newInt = [] := hn1
    have e2 : b.newTime = [] := by rw [hn2]; rfl
    cases b
    simp only at e1 e2
    subst e1; subst e2; rfl
  rw [hcl] at h2
  have hcs : ∀ c ∈ allCombos (cfg.pool.filter (fun e => !ADC.itemMem g e)), StarChoice cfg g c :=
    fun c hc => ((mem_allCombos _ _).1 hc).1
  obtain ⟨f2, b2, best2, C2, h4, h5, h6⟩ := star_leafFold ts hw hd hl hlast _ _ false b best C h2 hcs
  have hlastNode : optimiseLastNode cfg b = .ok (f2, b2) := by
    unfold optimiseLastNode
    rw [star_available ts h2.leaf, exc_bind_ok, h4]
    simp
  have htr : (fun x => (False ∨ x = ([] : Group)) ∨
      x ∈ allCombos (cfg.pool.filter (fun e => !ADC.itemMem g e))) = StarChoice cfg g := by
    funext x
    simp only [mem_allCombos, StarChoice, false_or, eq_iff_iff]
    constructor
    · rintro (rfl | h)
      · exact List.nil_sublist _
      · exact h.1
    · intro h
      by_cases hx : x = []
      · exact Or.inl hx
      · exact Or.inr ⟨h, hx⟩
  rw [htr] at h5
  refine ⟨b2, best2, C2, ?_, h5⟩
  have hadd : addNew I [] = I := by
    have e1 : info.newInt = [] := s.newInt
    have e2 : info.newTime = [] := s.newTime
    show ({ I with newInt := [], newTime := [] } : Info) = I
    show ({ I with newInt := [], newTime := [] } : Info) = { I with newInt := info.newInt, newTime := info.newTime }
    rw [e1, e2]
  unfold tryCombo at h1
  rw [hadd] at h1
  obtain ⟨⟨f1, i⟩, k1, k2⟩ := exc_bind_eq_ok.1 h1
  unfold solveLeaf
  rw [k1, exc_bind_ok]
  cases f1 with
  | false =>
    simp only [Bool.false_eq_true, if_false, exc_pure, Except.ok.injEq, Prod.mk.injEq] at k2 ⊢
    obtain ⟨rfl, rfl⟩ := k2
    rw [hlastNode, exc_bind_ok, h6, h3]
    simp
  | true =>
    simp only [if_true] at k2 ⊢
    obtain ⟨j, k3, k4⟩ := exc_bind_eq_ok.1 k2
    simp only [exc_pure, Except.ok.injEq, Prod.mk.injEq] at k4
    obtain ⟨rfl, rfl⟩ := k4
    rw [k3, exc_bind_ok, hlastNode, exc_bind_ok, h6, h3]
    simp [exc_pure]

/-! ### all leaves below one root decision -/

/-- the search is between two leaves, or before the first one -/
structure StarMid (cfg : Cfg) (g : Group) (info : Info) : Prop where
  path : info.candPath = [(0, 0)]
  int : info.candInt = [(0, g)]
  op : info.candOp = [(0, (cfg.opf [] ⟨0, g.map (·.2)⟩).2 * 365)]
  time : ∃ t, info.candTime = [(0, t)] ∧ DoneTimes t g
  level : info.level = 0

theorem star_solve {cfg leaves} (ts : TwoStage cfg leaves) {w : Rat}
    (hw : levelWeight cfg 1 = .ok w) {g : Group} {l : Nat} {done R0 C0} (hd : StarDone done R0)
    (hl : l ∉ done) (hll : l ∈ leaves) (hlast : (∀ x ∈ leaves, x ∈ done ∨ x = l) → R0 ≠ [])
    {info : Info} (s : StarMid cfg g info) (hst : Stored info R0 [] C0) (fuel : Nat) :
    ∃ i best C, solve cfg (fuel + 1) { info with level := info.level + 1, node := l } =
        .ok (best.isSome, { i with level := i.level - 1 }) ∧
      StarAt cfg leaves w g l done R0 C0 (fun h => StarChoice cfg g h) i best C := by
  obtain ⟨t, ht, htd⟩ := s.time
  have hl0 : l ≠ 0 := by rintro rfl; exact ts.zero hll
  have hy := ts.years
  have hy1 : pyGet cfg.years 1 = .ok (cfg.years[1]'(by omega)) := pyGet_nat _ 1 (by omega)
  have hy0 : pyGet cfg.years 0 = .ok (cfg.years[0]'(by omega)) := pyGet_nat _ 0 (by omega)
  have hle : cfg.years[0]'(by omega) ≤ cfg.years[1]'(by omega) :=
    List.pairwise_iff_getElem.1 ts.sorted 0 1 (by omega) (by omega) (by omega)
  let A : Info := clearNew { info with level := info.level + 1, node := l }
  have hlev : A.level = 1 := by show info.level + 1 = 1; rw [s.level]; rfl
  have hadj : timeAdjustment cfg A = .ok (cfg.years[1]'(by omega) - cfg.years[0]'(by omega)) := by
    unfold timeAdjustment
    rw [hlev, hy1, exc_bind_ok]
    show (pyGet cfg.years 0 >>= _) = _
    rw [hy0]; rfl
  generalize hadjv : cfg.years[1]'(by omega) - cfg.years[0]'(by omega) = adj at hadj
  have hadj0 : 0 ≤ adj := by omega
  have hupd : updateTimes (-adj) A = .ok { A with
      candTime := shiftLevels (-adj) A.candTime, newTime := shiftTimes (-adj) A.newTime } := by
    apply updateTimes_eq
    · intro e he
      have : A.candTime = [(0, t)] := ht
      rw [this] at he
      rw [List.mem_singleton.1 he]
      exact htd.nodupT
    · show KeysNodup ([] : Times)
      unfold KeysNodup; simp
  let B : Info := { A with
      candTime := shiftLevels (-adj) A.candTime, newTime := shiftTimes (-adj) A.newTime }
  have sB : StarLeaf cfg g l { B with lastReached := true } := by
    refine ⟨s.path, s.int, s.op, ⟨shiftTimes (-adj) t, ?_, htd.shift (by omega)⟩, hlev, rfl, rfl, rfl,
      rfl⟩
    show shiftLevels (-adj) info.candTime = _
    rw [ht]; rfl
  have hstB : Stored B R0 [] C0 := ⟨hst.inc, hst.part, hst.comp⟩
  obtain ⟨i, best, C, h1, h2⟩ := star_solveLeaf ts hw hd hl hlast sB hstB
  refine ⟨i, best, C, ?_, h2⟩
  have hn : A.node ≠ 0 := hl0
  show solveBody cfg (solve cfg fuel) { info with level := info.level + 1, node := l } = _
  unfold solveBody
  show (if A.node ≠ 0 then (timeAdjustment cfg A >>= fun adj =>
      if A.node ≠ 0 then (updateTimes (-adj) A >>= fun info =>
        if cfg.nbr info.node = [] then solveLeaf cfg info
        else solveInner cfg (solve cfg fuel) adj info) else _) else _) = _
  rw [if_pos hn, hadj, exc_bind_ok, if_pos hn, hupd, exc_bind_ok]
  have hb : cfg.nbr B.node = [] := ts.leaf l hll
  show (if cfg.nbr B.node = [] then solveLeaf cfg B else _) = _
  rw [if_pos hb]
  exact h1

/-- the row of leaf `l` is the cheapest one for the root decision `g` -/
def StarBestRow (cfg : Cfg) (w : Rat) (g : Group) (l : Nat) (e : Int × Row) : Prop :=
  ∃ h, StarChoice cfg g h ∧ StarFeas cfg g l h ∧ e.2 = starRow cfg w g l h ∧
    ∀ h', StarChoice cfg g h' → StarFeas cfg g l h' →
      (starRow cfg w g l h).inv + (starRow cfg w g l h).op ≤
        (starRow cfg w g l h').inv + (starRow cfg w g l h').op

/-- the recorded plan, if there is one, is made of one root decision and one decision per leaf -/
def StarGood (cfg : Cfg) (leaves : List Nat) (w : Rat) (C : List (Int × Row)) : Prop :=
  C = [] ∨ ∃ g : Group, g.Sublist cfg.pool ∧ (cfg.opf [] ⟨0, g.map (·.2)⟩).1 = true ∧
    List.Forall₂ (fun l (e : Int × Row) => ∃ h, StarChoice cfg g h ∧ StarFeas cfg g l h ∧
      e.2 = starRow cfg w g l h) leaves C

theorem StarBestRow.weak {cfg w g l e} (h : StarBestRow cfg w g l e) :
    ∃ h, StarChoice cfg g h ∧ StarFeas cfg g l h ∧ e.2 = starRow cfg w g l h := by
  obtain ⟨h, a, b, c, _⟩ := h
  exact ⟨h, a, b, c⟩

theorem starForall₂_snoc {α β : Type} {r : α → β → Prop} {a : List α} {b : List β} {x : α} {y : β}
    (h : List.Forall₂ r a b) (hxy : r x y) : List.Forall₂ r (a ++ [x]) (b ++ [y]) := by
  induction h with
  | nil => exact .cons hxy .nil
  | cons h _ ih => exact .cons h ih

theorem star_exploreList {cfg leaves} (ts : TwoStage cfg leaves) {w : Rat}
    (hw : levelWeight cfg 1 = .ok w) {g : Group} (hg : g.Sublist cfg.pool)
    (hroot : (cfg.opf [] ⟨0, g.map (·.2)⟩).1 = true) (fuel : Nat) (todo : List Nat) :
    ∀ (done : List Nat) (R0 C0 : List (Int × Row)) (info : Info), done ++ todo = leaves →
      StarMid cfg g info → Stored info R0 [] C0 → StarDone done R0 →
      List.Forall₂ (StarBestRow cfg w g) done R0 → StarGood cfg leaves w C0 →
      ∃ f b done' R C, exploreList (solve cfg (fuel + 1)) todo info = .ok (f, b) ∧
        StarMid cfg g b ∧ Stored b R [] C ∧ StarDone done' R ∧ StarGood cfg leaves w C ∧
        (C0 ≠ [] → C ≠ [] ∧ totalCost C ≤ totalCost C0) ∧
        (todo ≠ [] → b.lastReached = true ∧ b.newInt = []) ∧
        (f = true → todo ≠ [] → b.allowDel = true ∧ C ≠ [] ∧ totalCost C ≤ totalCost R ∧
          List.Forall₂ (StarBestRow cfg w g) leaves R) ∧
        (f = false → ∃ l ∈ leaves, ∀ h, StarChoice cfg g h → ¬ StarFeas cfg g l h) := by
  induction todo with
  | nil =>
    intro done R0 C0 info hdone s hst hd hbest hgood
    exact ⟨true, info, done, R0, C0, rfl, s, hst, hd, hgood, fun h => ⟨h, le_refl _⟩,
      fun h => absurd rfl h, fun _ h => absurd rfl h, (fun h => by cases h)⟩
  | cons l todo ih =>
    intro done R0 C0 info hdone s hst hd hbest hgood
    have hnd := ts.nodup
    rw [← hdone] at hnd
    have hl : l ∉ done := by
      intro hm
      have := (List.nodup_append.1 hnd).2.2 l hm l (by simp)
      exact this rfl
    have hll : l ∈ leaves := by rw [← hdone]; simp
    have hlen : R0.length = done.length := by
      have := congrArg List.length hd.paths; simpa using this
    have hlastIff : (∀ x ∈ leaves, x ∈ done ∨ x = l) → todo = [] := by
      intro hall
      cases todo with
      | nil => rfl
      | cons y ys =>
        exfalso
        rcases hall y (by rw [← hdone]; simp) with hy | rfl
        · exact (List.nodup_append.1 hnd).2.2 y hy y (by simp) rfl
        · have := (List.nodup_append.1 hnd).2.1
          simp at this
    have hlast : (∀ x ∈ leaves, x ∈ done ∨ x = l) → R0 ≠ [] := by
      intro hall h0
      have ht := hlastIff hall
      have := ts.many
      rw [← hdone, ht] at this
      rw [h0] at hlen
      simp only [List.length_nil] at hlen
      simp [← hlen] at this
    obtain ⟨i, best, C, h1, h2⟩ := star_solve ts hw hd hl hll hlast s hst fuel
    have sMid : StarMid cfg g { i with level := i.level - 1 } := by
      refine ⟨h2.leaf.path, h2.leaf.int, h2.leaf.op, h2.leaf.time, ?_⟩
      show i.level - 1 = 0
      rw [h2.leaf.level]; rfl
    have hgoodC : StarGood cfg leaves w C := by
      rcases h2.fromOld with rfl | ⟨h, k1, k2, k3, rfl⟩
      · exact hgood
      · right
        refine ⟨g, hg, hroot, ?_⟩
        have ht := hlastIff k3
        rw [← hdone, ht]
        exact starForall₂_snoc (hbest.imp (fun _ _ h => h.weak)) ⟨h, k1, k2, rfl⟩
    unfold exploreList
    rw [h1, exc_bind_ok]
    cases best with
    | none =>
      refine ⟨false, _, done, R0, C, rfl, sMid, ⟨h2.stored.inc, h2.stored.part, h2.stored.comp⟩, hd,
        hgoodC, h2.old, fun _ => ⟨h2.leaf.last, h2.leaf.newInt⟩, (fun h => by cases h), fun _ => ⟨l, hll, ?_⟩⟩
      exact h2.noBest rfl
    | some h =>
      obtain ⟨k1, k2, k3⟩ := h2.isBest h rfl
      have hd' : StarDone (done ++ [l]) (starCur R0 (some (starRow cfg w g l h))) :=
        starCur_append R0 done hd _ l rfl
      have hbest' : List.Forall₂ (StarBestRow cfg w g) (done ++ [l])
          (starCur R0 (some (starRow cfg w g l h))) := starForall₂_snoc hbest ⟨h, k1, k2, rfl, k3⟩
      have hstN : Stored { i with level := i.level - 1 } (starCur R0 (some (starRow cfg w g l h))) [] C :=
        ⟨h2.stored.inc, h2.stored.part, h2.stored.comp⟩
      simp only [Option.isSome_some, if_true]
      by_cases htodo : todo = []
      · subst htodo
        have hall : ∀ x ∈ leaves, x ∈ done ∨ x = l := by
          intro x hx; rw [← hdone] at hx; simpa using hx
        obtain ⟨u1, u2, u3⟩ := h2.last hall (by simp)
        refine ⟨true, _, done ++ [l], starCur R0 (some (starRow cfg w g l h)), C, rfl, sMid, hstN, hd',
          hgoodC, h2.old, fun _ => ⟨h2.leaf.last, h2.leaf.newInt⟩, fun _ _ => ⟨u1, u2, u3, ?_⟩, (fun h => by cases h)⟩
        rw [← hdone]; exact hbest'
      · obtain ⟨f, b, done', R, C', q1, q2, q3, q4, q5, q6, q7, q8, q9⟩ := ih (done ++ [l])
          (starCur R0 (some (starRow cfg w g l h))) C { i with level := i.level - 1 }
          (by rw [← hdone]; simp) sMid hstN hd' hbest' hgoodC
        refine ⟨f, b, done', R, C', q1, q2, q3, q4, q5, ?_, fun _ => q7 htodo,
          fun hf _ => q8 hf htodo, q9⟩
        intro h0
        obtain ⟨u1, u2⟩ := h2.old h0
        obtain ⟨v1, v2⟩ := q6 u1
        exact ⟨v1, le_trans v2 u2⟩

/-! ### the root -/

theorem star_eliminate {info R C} (h : Stored info R [] C) (hn : (R.map (·.1)).Nodup)
    (hp : ∀ e ∈ R, pathContains e.2.path info.candPath = true) :
    ∃ b, eliminateOffspring info = .ok b ∧ Stored b [] [] C ∧ SameRest info b := by
  have hoff : offspringKeys info = R.map (·.1) := by
    unfold offspringKeys
    rw [h.incPaths, List.filter_eq_self.2, keys_col]
    intro x hx
    obtain ⟨e, he, rfl⟩ := List.mem_map.1 hx
    exact hp e he
  obtain ⟨i1, P1, he1, hs1, hr1⟩ := deleteKeys_filter (R.map (·.1)) h hn hn (fun k hk => hk)
  obtain ⟨i1', R1', P1', he1', hs1', _, hP, _, _⟩ := deleteKeys_spec (R.map (·.1)) h
    (List.Subperm.refl _)
  rw [he1] at he1'
  cases he1'
  have hP0 : P1' = [] := List.sublist_nil.1 hP
  have hs : Stored i1 [] [] C := by
    refine ⟨?_, ?_, hs1.comp⟩
    · rw [hs1.inc, List.filter_eq_nil_iff.2]
      intro e he
      simp only [decide_eq_true_eq, not_not]
      exact List.mem_map.2 ⟨e, he, rfl⟩
    · rw [hs1'.part, hP0]
  obtain ⟨i2, R2, he2, hs2, hR2, hr2, _⟩ := renumberKeys_spec hs
  have hR20 : R2 = [] := by simpa using hR2
  subst hR20
  unfold eliminateOffspring
  rw [hoff, he1, exc_bind_ok, he2, exc_bind_ok]
  split
  · exact ⟨_, rfl, ⟨hs2.inc, hs2.part, hs2.comp⟩, (hr1.trans hr2).trans (by constructor <;> rfl)⟩
  · exact ⟨_, rfl, hs2, hr1.trans hr2⟩

/-- the search stands at the root with nothing decided -/
structure StarRoot (info : Info) : Prop where
  path : info.candPath = []
  int : info.candInt = []
  op : info.candOp = []
  time : info.candTime = []
  node : info.node = 0
  level : info.level = 0

/-- cost of the row for leaf `l` -/
def starCost (cfg : Cfg) (w : Rat) (g : Group) (l : Nat) (h : Group) : Rat :=
  (starRow cfg w g l h).inv + (starRow cfg w g l h).op

/-- the recorded plan is as cheap as every plan with root decision `g` -/
def StarBound (cfg : Cfg) (leaves : List Nat) (w : Rat) (C : List (Int × Row)) (g : Group) : Prop :=
  (cfg.opf [] ⟨0, g.map (·.2)⟩).1 = true → ∀ H : Nat → Group,
    (∀ l ∈ leaves, StarChoice cfg g (H l) ∧ StarFeas cfg g l (H l)) →
    C ≠ [] ∧ totalCost C ≤ (leaves.map (fun l => starCost cfg w g l (H l))).sum

theorem StarBound.mono {cfg leaves w C C' g} (h : StarBound cfg leaves w C g)
    (hC : C ≠ [] → C' ≠ [] ∧ totalCost C' ≤ totalCost C) : StarBound cfg leaves w C' g := by
  intro h1 H h2
  obtain ⟨a, b⟩ := h h1 H h2
  obtain ⟨c, d⟩ := hC a
  exact ⟨c, le_trans d b⟩

theorem star_sum {cfg w g} {H : Nat → Group} {leaves : List Nat} {R : List (Int × Row)}
    (h : List.Forall₂ (StarBestRow cfg w g) leaves R)
    (hH : ∀ l ∈ leaves, StarChoice cfg g (H l) ∧ StarFeas cfg g l (H l)) :
    totalCost R ≤ (leaves.map (fun l => starCost cfg w g l (H l))).sum := by
  induction h with
  | nil => simp [totalCost]
  | @cons l e ls R hle _ ih =>
    have := ih (fun x hx => hH x (by simp [hx]))
    obtain ⟨h, _, _, h3, h4⟩ := hle
    obtain ⟨a, b⟩ := hH l (by simp)
    have h5 := h4 _ a b
    unfold totalCost at this ⊢
    simp only [List.map_cons, List.sum_cons]
    rw [h3]
    have h6 : starCost cfg w g l (H l) =
      (starRow cfg w g l (H l)).inv + (starRow cfg w g l (H l)).op := rfl
    rw [h6]
    linarith

theorem star_root {cfg leaves} (ts : TwoStage cfg leaves) {w : Rat}
    (hw : levelWeight cfg 1 = .ok w) {g : Group} (hg : g.Sublist cfg.pool) (fuel : Nat) {info C0}
    (s : StarRoot info) (hlr : info.lastReached = false) (hnew : info.newInt = g)
    (hnt : DoneTimes info.newTime g) (hst : Stored info [] [] C0) (hgood : StarGood cfg leaves w C0) :
    ∃ f i b C, explore cfg (solve cfg (fuel + 1)) info = .ok (f, i) ∧
      afterExploration cfg i = .ok b ∧ StarRoot b ∧ b.lastReached = false ∧ Stored b [] [] C ∧
      StarGood cfg leaves w C ∧ (C0 ≠ [] → C ≠ [] ∧ totalCost C ≤ totalCost C0) ∧
      StarBound cfg leaves w C g ∧ (f = true → C ≠ []) ∧ (b.newInt = [] ∨ b.newInt = g) := by
  have hready : ready info = .ok (g.map (·.2)) := by
    rw [ready_eq]
    · rw [s.time, s.int, hnew, hnt.built]; simp [builtSol]
    · rw [s.time, s.int]; exact .nil
  have hopf : cfg.opf info.log ⟨0, g.map (·.2)⟩ = cfg.opf [] ⟨0, g.map (·.2)⟩ :=
    ts.opf _ _ _ _ (List.Perm.refl _)
  have hcf : checkFeasibility cfg info = .ok ((cfg.opf [] ⟨0, g.map (·.2)⟩).1,
      { info with log := info.log ++ [⟨0, g.map (·.2)⟩],
                  lastCost := (cfg.opf [] ⟨0, g.map (·.2)⟩).2 }) := by
    unfold checkFeasibility
    rw [hready, exc_bind_ok]
    simp only [s.node, hopf, exc_pure]
  have haft : ∀ i : Info, i.lastReached = false → afterExploration cfg i = .ok i := by
    intro i hi
    unfold afterExploration
    simp [hi, exc_bind_ok, exc_pure]
  unfold explore
  rw [hcf, exc_bind_ok]
  cases hf : (cfg.opf [] ⟨0, g.map (·.2)⟩).1 with
  | false =>
    refine ⟨false, _, _, C0, rfl, haft _ hlr,
      ⟨s.path, s.int, s.op, s.time, s.node, s.level⟩, hlr, ⟨hst.inc, hst.part, hst.comp⟩, hgood,
      fun h => ⟨h, le_refl _⟩, ?_, (fun h => by cases h), Or.inr hnew⟩
    intro h1; rw [hf] at h1; cases h1
  | true =>
    let X : Info := construct { info with
      log := info.log ++ [⟨0, g.map (·.2)⟩], lastCost := (cfg.opf [] ⟨0, g.map (·.2)⟩).2 }
    have sX : StarMid cfg g X := by
      refine ⟨?_, ?_, ?_, ⟨info.newTime, ?_, hnt⟩, s.level⟩
      · show info.candPath ++ [((info.candPath.length : Int), info.node)] = _
        rw [s.path, s.node]; rfl
      · show info.candInt ++ [(info.level, info.newInt)] = _
        rw [s.int, s.level, hnew]; rfl
      · show info.candOp ++ [(info.level, _)] = _
        rw [s.op, s.level]; rfl
      · show info.candTime ++ [(info.level, _)] = _
        rw [s.time, s.level]; rfl
    have hstX : Stored X [] [] C0 := ⟨hst.inc, hst.part, hst.comp⟩
    have hne : leaves ≠ [] := by
      intro h; have := ts.many; rw [h] at this; simp at this
    obtain ⟨f, j, done', R, C, q1, q2, q3, q4, q5, q6, q7, q8, q9⟩ :=
      star_exploreList ts hw hg hf fuel leaves [] [] C0 X rfl sX hstX ⟨rfl, rfl⟩ .nil hgood
    have hnodeX : X.node = 0 := s.node
    have hR : ∀ e ∈ R, pathContains e.2.path [(0, 0)] = true := by
      intro e he
      have : e.2.path ∈ R.map (·.2.path) := List.mem_map.2 ⟨e, he, rfl⟩
      rw [q4.paths] at this
      obtain ⟨d, _, hde⟩ := List.mem_map.1 this
      rw [← hde, pathContains_iff_subset]
      intro x hx
      rw [List.mem_singleton.1 hx]; simp
    have hRn : (R.map (·.1)).Nodup := by rw [q4.keys]; exact nodup_ints _
    let J : Info := { j with node := 0 }
    have hstJ : Stored J R [] C := ⟨q3.inc, q3.part, q3.comp⟩
    obtain ⟨k, hk1, hk2, hk3⟩ := star_eliminate hstJ hRn (by
      have : J.candPath = [(0, 0)] := q2.path
      rw [this]; exact hR)
    have hgraph : graphExploration cfg (solve cfg (fuel + 1)) X = .ok (f, k) := by
      unfold graphExploration exploreSuccessors
      rw [hnodeX, ts.root, q1]
      have hcond : (!f || J.allowDel) = true := by
        cases f with
        | false => rfl
        | true =>
          have := (q8 rfl hne).1
          show (!true || j.allowDel) = true
          rw [this]; rfl
      show (if (!f || J.allowDel) then (eliminateOffspring J >>= fun info => pure (f, info))
        else pure (f, J)) = _
      rw [if_pos hcond, hk1]; rfl
    obtain ⟨t, ht, _⟩ := q2.time
    have klev : k.level = 0 := hk3.level.trans q2.level
    have e1 : popOnly k.candInt k.level = .ok [] := by
      have : k.candInt = [(0, g)] := hk3.candInt.trans q2.int
      rw [this, klev]
      exact popOnly_append_self ([] : Sol) 0 g
    have e2 : popOnly k.candTime k.level = .ok [] := by
      have : k.candTime = [(0, t)] := hk3.candTime.trans ht
      rw [this, klev]
      exact popOnly_append_self ([] : List (Int × Times)) 0 t
    have e3 : popOnly k.candOp k.level = .ok [] := by
      have : k.candOp = _ := hk3.candOp.trans q2.op
      rw [this, klev]
      exact popOnly_append_self ([] : List (Int × Rat)) 0 _
    have e4 : popOnly k.candPath ((k.candPath.length : Int) - 1) = .ok [] := by
      have : k.candPath = [(0, 0)] := hk3.candPath.trans q2.path
      rw [this]
      exact popOnly_append_self ([] : Path) 0 0
    have hret : returnToPrevious k =
        .ok { k with candInt := [], candTime := [], candOp := [], candPath := [] } := by
      unfold returnToPrevious
      rw [e1, exc_bind_ok, e2, exc_bind_ok, e3, exc_bind_ok, e4, exc_bind_ok]; rfl
    let K : Info := { k with candInt := [], candTime := [], candOp := [], candPath := [] }
    have hKlast : K.lastReached = true := hk3.lastReached.trans (q7 hne).1
    have hKnode : K.node = 0 := hk3.node
    have hstK : Stored K [] [] C := ⟨hk2.inc, hk2.part, hk2.comp⟩
    obtain ⟨m, P', hm1, hm2, hm3, hm4, _⟩ := storePartial_spec hstK
    have hP' : P' = [] := by rcases hm3 with h | h <;> exact h
    subst hP'
    obtain ⟨n, hn1, hn2, hn3⟩ := star_eliminate hm2 (by simp) (by simp)
    refine ⟨f, K, { n with lastReached := false }, C, ?_, ?_, ?_, rfl,
      ⟨hn2.inc, hn2.part, hn2.comp⟩, q5, q6, ?_, ?_,
      Or.inl (hn3.newInt.trans (hm4.newInt.trans (hk3.newInt.trans (q7 hne).2)))⟩
    · show (graphExploration cfg (solve cfg (fuel + 1)) X >>= fun p => returnToPrevious p.2 >>=
        fun info => pure (p.1, info)) = _
      rw [hgraph, exc_bind_ok, hret]; rfl
    · unfold afterExploration
      have hmlast : m.lastReached = true := hm4.lastReached.trans hKlast
      have hmnode : m.node = 0 := hm4.node.trans hKnode
      show (if K.lastReached then (storePartial K >>= fun info =>
        if (cfg.nbr info.node).length > 1 ∧ info.lastReached then
          (eliminateOffspring info >>= fun info => pure { info with lastReached := false })
        else pure info) else _) = _
      rw [if_pos hKlast, hm1, exc_bind_ok, hmnode, ts.root]
      rw [if_pos ⟨ts.many, hmlast⟩, hn1]; rfl
    · exact ⟨hn3.candPath.trans (hm4.candPath.trans rfl), hn3.candInt.trans (hm4.candInt.trans rfl),
        hn3.candOp.trans (hm4.candOp.trans rfl), hn3.candTime.trans (hm4.candTime.trans rfl),
        hn3.node.trans (hm4.node.trans hKnode), hn3.level.trans (hm4.level.trans klev)⟩
    · intro _ H hH
      cases f with
      | true =>
        obtain ⟨_, u2, u3, u4⟩ := q8 rfl hne
        exact ⟨u2, le_trans u3 (star_sum u4 hH)⟩
      | false =>
        obtain ⟨l, hl, hno⟩ := q9 rfl
        exact absurd (hH l hl).2 (hno _ (hH l hl).1)
    · intro hft
      exact (q8 hft hne).2.1

theorem star_handler {cfg leaves} (ts : TwoStage cfg leaves) {w : Rat}
    (hw : levelWeight cfg 1 = .ok w) (fuel : Nat) (cs : List Group) :
    ∀ (acc : Bool) (info : Info) (C0 : List (Int × Row)), (∀ g ∈ cs, g.Sublist cfg.pool) →
      StarRoot info → info.lastReached = false → Stored info [] [] C0 → StarGood cfg leaves w C0 →
      ∃ f b C, cs.foldlM (handlerStep cfg (solve cfg (fuel + 1))) (acc, info) = .ok (acc || f, b) ∧
        StarRoot b ∧ Stored b [] [] C ∧ StarGood cfg leaves w C ∧
        (C0 ≠ [] → C ≠ [] ∧ totalCost C ≤ totalCost C0) ∧
        (∀ g ∈ cs, StarBound cfg leaves w C g) ∧ (f = true → C ≠ []) := by
  induction cs with
  | nil =>
    intro acc info C0 _ s _ hst hg
    exact ⟨false, info, C0, by simp [exc_pure], s, hst, hg, fun h => ⟨h, le_refl _⟩, (by simp),
      (fun h => by cases h)⟩
  | cons g cs ih =>
    intro acc info C0 hsub s hlr hst hgood
    have hg := hsub g (by simp)
    have sA : StarRoot (addNew info g) := ⟨s.path, s.int, s.op, s.time, s.node, s.level⟩
    obtain ⟨f, i, b, C, h1, h2, h3, h4, h5, h6, h7, h8, h9, _⟩ := star_root ts hw hg fuel sA hlr rfl
      (addNew_done ts hg) (C0 := C0) ⟨hst.inc, hst.part, hst.comp⟩ hgood
    have sB : StarRoot (clearNew b) := ⟨h3.path, h3.int, h3.op, h3.time, h3.node, h3.level⟩
    obtain ⟨f2, b2, C2, q1, q2, q3, q4, q5, q6, q7⟩ := ih (acc || f) (clearNew b) C
      (fun x hx => hsub x (by simp [hx])) sB h4 ⟨h5.inc, h5.part, h5.comp⟩ h6
    refine ⟨f || f2, b2, C2, ?_, q2, q3, q4, ?_, ?_, ?_⟩
    · have hstep : handlerStep cfg (solve cfg (fuel + 1)) (acc, info) g = .ok (acc || f, clearNew b) := by
        unfold handlerStep
        show (explore cfg (solve cfg (fuel + 1)) (addNew info g) >>= fun p =>
          afterExploration cfg p.2 >>= fun info => pure (acc || p.1, clearNew info)) = _
        rw [h1, exc_bind_ok, h2]; rfl
      rw [List.foldlM_cons, hstep, exc_bind_ok, q1, Bool.or_assoc]
    · intro h0
      obtain ⟨u1, u2⟩ := h7 h0
      obtain ⟨v1, v2⟩ := q5 u1
      exact ⟨v1, le_trans v2 u2⟩
    · intro x hx
      rcases List.mem_cons.1 hx with rfl | hx
      · exact h8.mono q5
      · exact q6 x hx
    · intro hf
      cases f with
      | true => exact (q5 (h9 rfl)).1
      | false => exact q7 (by simpa using hf)

/-- The whole search on a tree of two stages. -/
theorem star_run {cfg leaves} (ts : TwoStage cfg leaves) {fuel : Nat} (hfuel : 2 ≤ fuel) :
    ∃ w f b C, levelWeight cfg 1 = .ok w ∧ runSearch cfg fuel = .ok (f, b) ∧ b.complete = planOf C ∧
      StarGood cfg leaves w C ∧ (∀ g : Group, g.Sublist cfg.pool → StarBound cfg leaves w C g) ∧
      (f = true → C ≠ []) := by
  obtain ⟨w, hw⟩ := levelWeight_ok cfg ts.rate 1 ts.years
  obtain ⟨fuel', rfl⟩ : ∃ n, fuel = n + 1 + 1 := ⟨fuel - 2, by omega⟩
  have s0 : StarRoot ({} : Info) := ⟨rfl, rfl, rfl, rfl, rfl, rfl⟩
  obtain ⟨f, i, b, C, h1, h2, h3, h4, h5, h6, h7, h8, h9, h10⟩ := star_root ts hw
    (List.nil_sublist cfg.pool) fuel' s0 rfl rfl ⟨rfl, (by intro e he; cases he), (by simp)⟩
    (C0 := []) ⟨rfl, rfl, rfl⟩ (Or.inl rfl)
  have hav : available cfg b = cfg.pool := by
    have hb : b.newInt = [] := by rcases h10 with h | h <;> exact h
    rw [available_eq, h3.int, hb]
    apply List.filter_eq_self.2
    intro e _
    simp [ADC.itemMem]
  obtain ⟨f2, b2, C2, q1, q2, q3, q4, q5, q6, q7⟩ := star_handler ts hw fuel' (allCombos cfg.pool)
    false b C (fun g hg => ((mem_allCombos _ _).1 hg).1) h3 h4 h5 h6
  obtain ⟨b3, R3, r1, r2, r3, r4, _⟩ := restorePartial_spec q3
  have hn3 : b3.node = 0 := r4.node.trans q2.node
  refine ⟨w, f2, { b3 with level := b3.level - 1 }, C2, hw, ?_, r2.comp, q4, ?_, q7⟩
  · show solveBody cfg (solve cfg (fuel' + 1)) {} = _
    have hnbr : ¬ cfg.nbr 0 = [] := by
      rw [ts.root]
      intro h; have := ts.many; rw [h] at this; simp at this
    unfold solveBody
    show (if cfg.nbr 0 = [] then _ else solveInner cfg (solve cfg (fuel' + 1)) (-1) {}) = _
    rw [if_neg hnbr]
    have hih : interventionsHandler cfg (solve cfg (fuel' + 1)) b = .ok (f2, b3) := by
      unfold interventionsHandler
      rw [hav, q1]
      show (restorePartial b2 >>= fun info => pure (false || f2, info)) = _
      rw [r1]; simp [exc_pure]
    unfold solveInner
    show (explore cfg (solve cfg (fuel' + 1)) {} >>= fun p => afterExploration cfg p.2 >>= fun info =>
      interventionsHandler cfg (solve cfg (fuel' + 1)) info >>= fun p =>
        if p.2.node ≠ 0 then _ else ((.ok p.2 : Except PyErr Info) >>= fun info =>
          pure (p.1, { info with level := info.level - 1 }))) = _
    rw [h1, exc_bind_ok, h2, exc_bind_ok, hih, exc_bind_ok]
    simp only
    rw [if_neg (by rw [hn3]; simp)]
    rfl
  · intro g hg
    by_cases hg0 : g = []
    · subst hg0; exact h8.mono q5
    · exact q6 g ((mem_allCombos _ _).2 ⟨hg, hg0⟩)

end Pyensys
