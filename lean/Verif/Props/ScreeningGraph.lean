import Verif.Model.ScreeningGraph
import Verif.Lemmas.Engine
import Mathlib.Data.List.Nodup

/-!
# C234-C236: the screening stage reads the case

The specification names the tables, the columns and the keys of the parameters by themselves; the model of the
code is `Verif.Model.ScreeningGraph`.
-/

namespace Pyensys

/-! ## specification -/

/-- the tables of a case -/
inductive SgTable where
  | gen | bus | branch
  deriving DecidableEq, Repr

/-- how many elements a table has -/
def SgCase.count (c : SgCase) : SgTable → Nat
  | .gen => c.noGen
  | .bus => c.noBus
  | .branch => c.noBranch

/-- the columns of a table -/
def SgCase.table (c : SgCase) : SgTable → Tok → Option (List Rat)
  | .gen => c.gen
  | .bus => c.bus
  | .branch => c.branch

/-- the columns whose values the programme can ask for -/
def SgTable.columns : SgTable → List Tok
  | .gen => ["PMAX".toList, "PMIN".toList, "QMAX".toList, "QMIN".toList, "VG".toList, "GEN_BUS".toList]
  | .bus => ["BASE_KV".toList, "PD".toList, "QD".toList, "VMAX".toList, "VMIN".toList]
  | .branch => ["BR_B".toList, "BR_R".toList, "BR_X".toList, "RATE_A".toList, "BR_STATUS".toList]

/-- the columns with the numbers of buses -/
def SgTable.places : SgTable → List Tok
  | .gen => ["GEN_BUS".toList]
  | .bus => ["BUS_I".toList]
  | .branch => ["F_BUS".toList, "T_BUS".toList]

/-- what the names of the elements start with -/
def SgTable.title : SgTable → Tok
  | .gen => ['G', 'e', 'n']
  | .bus => ['B', 'u', 's']
  | .branch => ['B', 'r', 'a', 'n', 'c', 'h']

/-- the entry of element `i` in a column -/
def SgCase.entry (c : SgCase) (t : SgTable) (col : Tok) (i : Nat) : Option Rat := (c.table t col).bind (fun l => l[i]?)

/-- the name of element `i`, and the key of one of its values: Gen3, Gen3_PMAX -/
def sgName (t : SgTable) (i : Nat) : Tok := t.title ++ Nat.toDigits 10 i
def sgKey (t : SgTable) (i : Nat) (col : Tok) : Tok := sgName t i ++ '_' :: col

/-- every table has elements, and an entry for each of them in all the columns that are read -/
def SgComplete (c : SgCase) : Prop :=
  ∀ t, 0 < c.count t ∧ ∀ col ∈ t.columns ++ t.places, ∀ i, i < c.count t → (c.entry t col i).isSome

/-! ## reading the case -/

theorem sgAt_iff (tab : Tok → Option (List Rat)) (col : Tok) (i : Nat) (v : Rat) : sgAt tab col i = .ok v ↔ (tab col).bind (fun l => l[i]?) = some v := by
  unfold sgAt
  cases tab col with
  | none => simp
  | some l =>
    unfold pyGet
    simp only [Int.natCast_nonneg, Int.not_lt.2, if_false, Int.toNat_natCast, Option.bind_some, if_neg (Int.not_lt.2 (Int.natCast_nonneg i))]
    cases l[i]? <;> simp

/-- the value of an entry that exists -/
def SgCase.val (c : SgCase) (t : SgTable) (col : Tok) (i : Nat) : Rat := (c.entry t col i).getD 0

def sgKindOf : SgTable → SgKind
  | .gen => .generator
  | .bus => .bus
  | .branch => .branch

def sgBusOf (c : SgCase) (t : SgTable) (i : Nat) : Option Rat :=
  match t with
  | .gen => some (c.val .gen "GEN_BUS".toList i)
  | .bus => some (c.val .bus "BUS_I".toList i)
  | .branch => none

def sgEndsOf (c : SgCase) (t : SgTable) (i : Nat) : Option (Rat × Rat) :=
  match t with
  | .branch => some (c.val .branch "F_BUS".toList i, c.val .branch "T_BUS".toList i)
  | _ => none

/-- the parameter read for an entry -/
def sgP (c : SgCase) (t : SgTable) (i : Nat) (col : Tok) : SgParam :=
  ⟨col, none, sgName t i, sgKindOf t, sgBusOf c t i, sgEndsOf c t i, c.val t col i⟩

/-- the code that reads an entry -/
def sgReadOne (c : SgCase) : SgTable → Nat → Tok → Except PyErr SgParam
  | .gen => sgGenParam c
  | .bus => sgBusParam c
  | .branch => sgBranchParam c

theorem sg_bind_ok {α β : Type} {x : Except PyErr α} {f : α → Except PyErr β} {b : β} : (x >>= f) = .ok b ↔ ∃ a, x = .ok a ∧ f a = .ok b := by
  cases x with
  | error e => constructor
               · intro h; cases h
               · rintro ⟨a, h, _⟩; cases h
  | ok a => constructor
            · intro h; exact ⟨a, rfl, h⟩
            · rintro ⟨a', h, h'⟩; injection h with h; subst h; exact h'

theorem sgAt_val {c : SgCase} {t : SgTable} {col : Tok} {i : Nat} (h : (c.entry t col i).isSome) : sgAt (c.table t) col i = .ok (c.val t col i) := by
  rw [sgAt_iff]
  show c.entry t col i = some _
  unfold SgCase.val
  cases he : c.entry t col i with
  | none => rw [he] at h; cases h
  | some v => rfl

theorem sgReadOne_ok {c : SgCase} {t : SgTable} {i : Nat} {col : Tok} (h : ∀ k ∈ col :: t.places, (c.entry t k i).isSome) :
    sgReadOne c t i col = .ok (sgP c t i col) := by
  have hc := sgAt_val (h col (by simp))
  cases t with
  | gen =>
    have hb := sgAt_val (h "GEN_BUS".toList (by simp [SgTable.places]))
    show sgGenParam c i col = _
    unfold sgGenParam
    rw [show sgAt c.gen "GEN_BUS".toList i = _ from hb, show sgAt c.gen col i = _ from hc]
    rfl
  | bus =>
    have hb := sgAt_val (h "BUS_I".toList (by simp [SgTable.places]))
    show sgBusParam c i col = _
    unfold sgBusParam
    rw [show sgAt c.bus "BUS_I".toList i = _ from hb, show sgAt c.bus col i = _ from hc]
    rfl
  | branch =>
    have hf := sgAt_val (h "F_BUS".toList (by simp [SgTable.places]))
    have ht := sgAt_val (h "T_BUS".toList (by simp [SgTable.places]))
    show sgBranchParam c i col = _
    unfold sgBranchParam
    rw [show sgAt c.branch "F_BUS".toList i = _ from hf, show sgAt c.branch "T_BUS".toList i = _ from ht, show sgAt c.branch col i = _ from hc]
    rfl

theorem sgAt_some {c : SgCase} {t : SgTable} {col : Tok} {i : Nat} {v : Rat} (h : sgAt (c.table t) col i = .ok v) : (c.entry t col i).isSome := by
  rw [sgAt_iff] at h
  show Option.isSome ((c.table t col).bind _) = true
  rw [h]; rfl

theorem sgReadOne_some {c : SgCase} {t : SgTable} {i : Nat} {col : Tok} {p : SgParam} (h : sgReadOne c t i col = .ok p) :
    ∀ k ∈ col :: t.places, (c.entry t k i).isSome := by
  cases t with
  | gen =>
    obtain ⟨b, hb, h⟩ := sg_bind_ok.1 h
    obtain ⟨v, hv, _⟩ := sg_bind_ok.1 h
    intro k hk
    simp only [SgTable.places, List.mem_cons, List.not_mem_nil, or_false] at hk
    rcases hk with rfl | rfl
    · exact sgAt_some hv
    · exact sgAt_some (t := .gen) hb
  | bus =>
    obtain ⟨b, hb, h⟩ := sg_bind_ok.1 h
    obtain ⟨v, hv, _⟩ := sg_bind_ok.1 h
    intro k hk
    simp only [SgTable.places, List.mem_cons, List.not_mem_nil, or_false] at hk
    rcases hk with rfl | rfl
    · exact sgAt_some hv
    · exact sgAt_some (t := .bus) hb
  | branch =>
    obtain ⟨f, hf, h⟩ := sg_bind_ok.1 h
    obtain ⟨e, he, h⟩ := sg_bind_ok.1 h
    obtain ⟨v, hv, _⟩ := sg_bind_ok.1 h
    intro k hk
    simp only [SgTable.places, List.mem_cons, List.not_mem_nil, or_false] at hk
    rcases hk with rfl | rfl | rfl
    · exact sgAt_some hv
    · exact sgAt_some (t := .branch) hf
    · exact sgAt_some (t := .branch) he

/-- the blocks of parameters of a table: one block per element -/
def sgBlocks (c : SgCase) (t : SgTable) : List (List SgParam) := (List.range (c.count t)).map (fun i => t.columns.map (sgP c t i))

theorem columns_ne (t : SgTable) : t.columns ≠ [] := by cases t <;> simp [SgTable.columns]

theorem sgLoop_ok {c : SgCase} (h : SgComplete c) (t : SgTable) : sgLoop (c.count t) t.columns (sgReadOne c t) = .ok (sgBlocks c t).flatten := by
  obtain ⟨h0, h⟩ := h t
  unfold sgLoop
  rw [mapE_all _ (fun i => t.columns.map (sgP c t i)) _ (fun i hi => ?_)]
  · show (if c.count t = 0 then _ else _) = _
    rw [if_neg (by omega)]
    rfl
  · apply mapE_all
    intro col hcol
    apply sgReadOne_ok
    intro k hk
    apply h k _ i (List.mem_range.1 hi)
    rcases List.mem_cons.1 hk with rfl | hk
    · exact List.mem_append_left _ hcol
    · exact List.mem_append_right _ hk

theorem sgLoop_some {c : SgCase} (t : SgTable) {ps : List SgParam} (h : sgLoop (c.count t) t.columns (sgReadOne c t) = .ok ps) :
    0 < c.count t ∧ ∀ col ∈ t.columns ++ t.places, ∀ i, i < c.count t → (c.entry t col i).isSome := by
  unfold sgLoop at h
  obtain ⟨bs, hbs, h⟩ := sg_bind_ok.1 h
  by_cases h0 : c.count t = 0
  · rw [if_pos h0] at h; cases h
  refine ⟨by omega, ?_⟩
  intro col hcol i hi
  have hall := (mapE_iff _ _ _).1 hbs
  have key : ∀ (l : List Nat) (r : List (List SgParam)), List.Forall₂ (fun i b => t.columns.mapM (sgReadOne c t i) = .ok b) l r → ∀ i ∈ l, ∃ b, t.columns.mapM (sgReadOne c t i) = .ok b := by
    intro l r hf
    induction hf with
    | nil => intro i hi; cases hi
    | cons hab _ ih =>
      intro i hi
      rcases List.mem_cons.1 hi with rfl | hi
      · exact ⟨_, hab⟩
      · exact ih i hi
  obtain ⟨b, hb⟩ := key _ _ hall i (List.mem_range.2 hi)
  have hb' := (mapE_iff _ _ _).1 hb
  have key2 : ∀ (l : List Tok) (r : List SgParam), List.Forall₂ (fun col p => sgReadOne c t i col = .ok p) l r → ∀ col ∈ l, ∃ p, sgReadOne c t i col = .ok p := by
    intro l r hf
    induction hf with
    | nil => intro i hi; cases hi
    | cons hab _ ih =>
      intro i hi
      rcases List.mem_cons.1 hi with rfl | hi
      · exact ⟨_, hab⟩
      · exact ih i hi
  rcases List.mem_append.1 hcol with hcol | hcol
  · obtain ⟨p, hp⟩ := key2 _ _ hb' col hcol
    exact sgReadOne_some hp col (by simp)
  · obtain ⟨c0, hc0⟩ := List.exists_mem_of_ne_nil _ (columns_ne t)
    obtain ⟨p, hp⟩ := key2 _ _ hb' c0 hc0
    exact sgReadOne_some hp col (List.mem_cons_of_mem _ hcol)

theorem sgRead_eq (c : SgCase) : sgRead c = (sgLoop (c.count .gen) SgTable.gen.columns (sgReadOne c .gen) >>= fun g =>
    sgLoop (c.count .bus) SgTable.bus.columns (sgReadOne c .bus) >>= fun b =>
    sgLoop (c.count .branch) SgTable.branch.columns (sgReadOne c .branch) >>= fun r => .ok (g ++ b ++ r)) := rfl

/-- all the blocks, in the order in which they are read -/
def sgAll (c : SgCase) : List (List SgParam) := sgBlocks c .gen ++ sgBlocks c .bus ++ sgBlocks c .branch

theorem sgRead_ok {c : SgCase} (h : SgComplete c) : sgRead c = .ok (sgAll c).flatten := by
  rw [sgRead_eq, sgLoop_ok h, sgLoop_ok h, sgLoop_ok h]
  show Except.ok _ = _
  unfold sgAll
  rw [List.flatten_append, List.flatten_append]

/-- **C235.** The screening accepts exactly the cases with at least one generator, one bus and one branch, and with an entry for each of them in all the columns it reads. -/
theorem C235_accepted (c : SgCase) : (∃ ps, sgRead c = .ok ps) ↔ SgComplete c := by
  constructor
  · rintro ⟨ps, h⟩
    rw [sgRead_eq] at h
    obtain ⟨g, hg, h⟩ := sg_bind_ok.1 h
    obtain ⟨b, hb, h⟩ := sg_bind_ok.1 h
    obtain ⟨r, hr, _⟩ := sg_bind_ok.1 h
    intro t
    cases t
    · exact sgLoop_some _ hg
    · exact sgLoop_some _ hb
    · exact sgLoop_some _ hr
  · intro h
    exact ⟨_, sgRead_ok h⟩

/-! ## the nodes of the graph -/

theorem sgJoin_none {p : SgParam} {ns : List SgNode} (h : ∀ n ∈ ns, n.id ≠ p.id) : sgJoin p ns = none := by
  induction ns with
  | nil => rfl
  | cons n ns ih =>
    unfold sgJoin
    rw [if_neg (h n (by simp)), ih (fun m hm => h m (by simp [hm]))]
    rfl

theorem sgJoin_last {p : SgParam} {ns : List SgNode} (h : ∀ n ∈ ns, n.id ≠ p.id) (m : SgNode) (hm : m.id = p.id) :
    sgJoin p (ns ++ [m]) = some (ns ++ [{ m with params := m.params ++ [p] }]) := by
  induction ns with
  | nil => simp [sgJoin, hm]
  | cons n ns ih =>
    show sgJoin p (n :: (ns ++ [m])) = _
    unfold sgJoin
    rw [if_neg (h n (by simp)), ih (fun m hm => h m (by simp [hm]))]
    rfl

/-- the node of a block -/
def sgNodeOf (k : Nat) (p : SgParam) (ps : List SgParam) : SgNode := ⟨k, p.kind, p.id, p :: ps, p.bus, p.ends⟩

theorem sgInsert_block (ns : List SgNode) (p : SgParam) (hn : ∀ n ∈ ns, n.id ≠ p.id) (ps : List SgParam) (hp : ∀ q ∈ ps, q.id = p.id) (acc : List SgParam) :
    ps.foldl sgInsert (ns ++ [⟨ns.length, p.kind, p.id, acc, p.bus, p.ends⟩]) = ns ++ [⟨ns.length, p.kind, p.id, acc ++ ps, p.bus, p.ends⟩] := by
  induction ps generalizing acc with
  | nil => simp
  | cons q ps ih =>
    have hq := hp q (by simp)
    rw [List.foldl_cons]
    have : sgInsert (ns ++ [⟨ns.length, p.kind, p.id, acc, p.bus, p.ends⟩]) q = ns ++ [⟨ns.length, p.kind, p.id, acc ++ [q], p.bus, p.ends⟩] := by
      unfold sgInsert
      rw [sgJoin_last (by rw [hq]; exact hn) _ hq.symm]
    rw [this, ih (fun r hr => hp r (by simp [hr]))]
    simp

theorem sgInsert_first (ns : List SgNode) (p : SgParam) (hn : ∀ n ∈ ns, n.id ≠ p.id) (ps : List SgParam) (hp : ∀ q ∈ ps, q.id = p.id) :
    (p :: ps).foldl sgInsert ns = ns ++ [sgNodeOf ns.length p ps] := by
  rw [List.foldl_cons]
  have : sgInsert ns p = ns ++ [⟨ns.length, p.kind, p.id, [p], p.bus, p.ends⟩] := by
    unfold sgInsert
    rw [sgJoin_none hn]
  rw [this, sgInsert_block ns p hn ps hp]
  rfl

/-- the node of element `i` of a table -/
def sgN (c : SgCase) (k : Nat) (t : SgTable) (i : Nat) : SgNode :=
  ⟨k, sgKindOf t, sgName t i, t.columns.map (sgP c t i), sgBusOf c t i, sgEndsOf c t i⟩

theorem sgInsert_element (c : SgCase) (t : SgTable) (i : Nat) (ns : List SgNode) (hn : ∀ n ∈ ns, n.id ≠ sgName t i) :
    (t.columns.map (sgP c t i)).foldl sgInsert ns = ns ++ [sgN c ns.length t i] := by
  obtain ⟨x, xs, hx⟩ := List.exists_cons_of_ne_nil (columns_ne t)
  unfold sgN
  rw [hx, List.map_cons, sgInsert_first ns _ hn _ (by
    intro q hq
    obtain ⟨col, _, rfl⟩ := List.mem_map.1 hq
    rfl)]
  rfl

theorem sg_split {a b x y : List Char} (ha : '_' ∉ a) (hb : '_' ∉ b) (h : a ++ '_' :: x = b ++ '_' :: y) : a = b ∧ x = y := by
  induction a generalizing b with
  | nil =>
    cases b with
    | nil => simpa using h
    | cons c b =>
      simp only [List.nil_append, List.cons_append, List.cons.injEq] at h
      exact absurd (List.mem_cons.2 (Or.inl h.1)) hb
  | cons c a ih =>
    cases b with
    | nil =>
      simp only [List.nil_append, List.cons_append, List.cons.injEq] at h
      exact absurd (List.mem_cons.2 (Or.inl h.1.symm)) ha
    | cons d b =>
      simp only [List.cons_append, List.cons.injEq] at h
      obtain ⟨e1, e2⟩ := ih (fun hh => ha (by simp [hh])) (fun hh => hb (by simp [hh])) h.2
      exact ⟨by rw [h.1, e1], e2⟩

theorem sgDigits_inj {a b : Nat} (h : Nat.toDigits 10 a = Nat.toDigits 10 b) : a = b := by
  rw [← Nat.ofDigitChars_ten_toDigits (n := a), h, Nat.ofDigitChars_ten_toDigits]

theorem sgName_inj {t t' : SgTable} {i i' : Nat} (h : sgName t i = sgName t' i') : t = t' ∧ i = i' := by
  have key : t = t' := by
    cases t <;> cases t' <;> first | rfl | (simp [sgName, SgTable.title] at h)
  subst key
  exact ⟨rfl, sgDigits_inj (List.append_cancel_left h)⟩

theorem sgName_plain (t : SgTable) (i : Nat) : '_' ∉ sgName t i := by
  unfold sgName
  rw [List.mem_append]
  rintro (h | h)
  · cases t <;> revert h <;> decide
  · exact Nat.underscore_not_in_toDigits h

theorem sgKey_inj {t t' : SgTable} {i i' : Nat} {x y : Tok} (h : sgKey t i x = sgKey t' i' y) : t = t' ∧ i = i' ∧ x = y := by
  obtain ⟨h1, h2⟩ := sg_split (sgName_plain t i) (sgName_plain t' i') h
  obtain ⟨h3, h4⟩ := sgName_inj h1
  exact ⟨h3, h4, h2⟩

/-- the elements in the order in which they are read -/
def sgElems (c : SgCase) : List (SgTable × Nat) :=
  (List.range c.noGen).map (fun i => (.gen, i)) ++ (List.range c.noBus).map (fun i => (.bus, i)) ++ (List.range c.noBranch).map (fun i => (.branch, i))

theorem sgElems_nodup (c : SgCase) : (sgElems c).Nodup := by
  unfold sgElems
  refine List.nodup_append.2 ⟨List.nodup_append.2 ⟨?_, ?_, ?_⟩, ?_, ?_⟩
  · exact List.Nodup.map (fun a b h => (Prod.mk.inj h).2) List.nodup_range
  · exact List.Nodup.map (fun a b h => (Prod.mk.inj h).2) List.nodup_range
  · intro a ha b hb hab
    obtain ⟨i, _, rfl⟩ := List.mem_map.1 ha
    obtain ⟨j, _, rfl⟩ := List.mem_map.1 hb
    cases hab
  · exact List.Nodup.map (fun a b h => (Prod.mk.inj h).2) List.nodup_range
  · intro a ha b hb hab
    obtain ⟨j, _, rfl⟩ := List.mem_map.1 hb
    rcases List.mem_append.1 ha with ha | ha
    · obtain ⟨i, _, rfl⟩ := List.mem_map.1 ha
      cases hab
    · obtain ⟨i, _, rfl⟩ := List.mem_map.1 ha
      cases hab

theorem sgElems_mem (c : SgCase) (t : SgTable) (i : Nat) : (t, i) ∈ sgElems c ↔ i < c.count t := by
  unfold sgElems
  cases t <;> simp [SgCase.count]

theorem sgAll_eq (c : SgCase) : sgAll c = (sgElems c).map (fun e => e.1.columns.map (sgP c e.1 e.2)) := by
  unfold sgAll sgElems sgBlocks
  simp [List.map_append, SgCase.count, Function.comp_def]

/-- the nodes of a list of elements, numbered from `k` on -/
def sgNodesFrom (c : SgCase) : Nat → List (SgTable × Nat) → List SgNode
  | _, [] => []
  | k, e :: es => sgN c k e.1 e.2 :: sgNodesFrom c (k + 1) es

theorem sgNodes_fold (c : SgCase) (es : List (SgTable × Nat)) (hes : es.Nodup) (ns : List SgNode) (hn : ∀ n ∈ ns, ∀ e ∈ es, n.id ≠ sgName e.1 e.2) :
    (es.map (fun e => e.1.columns.map (sgP c e.1 e.2))).flatten.foldl sgInsert ns = ns ++ sgNodesFrom c ns.length es := by
  induction es generalizing ns with
  | nil => simp [sgNodesFrom]
  | cons e es ih =>
    rw [List.nodup_cons] at hes
    rw [List.map_cons, List.flatten_cons, List.foldl_append, sgInsert_element c e.1 e.2 ns (fun n hm => hn n hm e (by simp)), ih hes.2]
    · simp [sgNodesFrom]
    · intro n hm e' he'
      rcases List.mem_append.1 hm with hm | hm
      · exact hn n hm e' (by simp [he'])
      · rw [List.mem_singleton] at hm
        subst hm
        intro hh
        obtain ⟨h1, h2⟩ := sgName_inj hh
        exact hes.1 (by rw [show e = e' from Prod.ext h1 h2]; exact he')

theorem sgNodes_eq (c : SgCase) : sgNodes (sgAll c).flatten = sgNodesFrom c 0 (sgElems c) := by
  unfold sgNodes
  rw [sgAll_eq, sgNodes_fold c _ (sgElems_nodup c) [] (fun n hn => by cases hn)]
  rfl

/-! ## the values -/

theorem sgPara_from (c : SgCase) (es : List (SgTable × Nat)) (k : Nat) :
    sgPara (sgNodesFrom c k es) = es.flatMap (fun e => e.1.columns.map (fun col => (sgKey e.1 e.2 col, c.val e.1 col e.2))) := by
  induction es generalizing k with
  | nil => rfl
  | cons e es ih =>
    show (sgN c k e.1 e.2).params.map _ ++ sgPara (sgNodesFrom c (k + 1) es) = _
    rw [ih, List.flatMap_cons]
    congr 1
    show (e.1.columns.map (sgP c e.1 e.2)).map _ = _
    rw [List.map_map]
    apply List.map_congr_left
    intro col _
    show (sgName e.1 e.2 ++ ['_'] ++ col, _) = (sgName e.1 e.2 ++ '_' :: col, _)
    rw [List.append_assoc]
    rfl

theorem sgParaGet_of (d : List (Tok × Rat)) (key : Tok) (v : Rat) (h1 : (key, v) ∈ d) (h2 : ∀ e ∈ d, e.1 = key → e.2 = v) : sgParaGet d key = .ok v := by
  unfold sgParaGet
  cases hf : d.reverse.find? (fun e => e.1 = key) with
  | none =>
    rw [List.find?_eq_none] at hf
    have := hf (key, v) (by simpa using h1)
    simp at this
  | some e =>
    have hm := List.mem_of_find?_eq_some hf
    have hp := List.find?_some hf
    simp only [decide_eq_true_eq] at hp
    simp only
    rw [h2 e (by simpa using hm) hp]

theorem sgParaGet_none (d : List (Tok × Rat)) (key : Tok) (h : ∀ e ∈ d, e.1 ≠ key) : sgParaGet d key = .error .key := by
  unfold sgParaGet
  rw [List.find?_eq_none.2]
  intro e he
  simpa using h e (by simpa using he)

theorem sgFind_of (c : SgCase) (t : SgTable) (i : Nat) (col : Tok) (cols : List Tok) (h : col ∈ cols) : sgFind col none (cols.map (sgP c t i)) = some (c.val t col i) := by
  induction cols with
  | nil => cases h
  | cons x xs ih =>
    rw [List.map_cons]
    unfold sgFind
    by_cases hx : x = col
    · rw [if_pos ⟨hx, Or.inl rfl⟩, ← hx]
      rfl
    · rw [if_neg (fun hh => hx hh.1)]
      exact ih (by rcases List.mem_cons.1 h with h | h; exact absurd h.symm hx; exact h)

theorem sgValue_from (c : SgCase) (t : SgTable) (i : Nat) (col : Tok) (hcol : col ∈ t.columns) (es : List (SgTable × Nat)) (he : (t, i) ∈ es) (k : Nat) :
    sgValue (sgNodesFrom c k es) (sgName t i) col false none "parameter".toList = .ok (some (c.val t col i)) := by
  induction es generalizing k with
  | nil => cases he
  | cons e es ih =>
    unfold sgNodesFrom sgValue
    rw [if_neg (by simp)]
    by_cases hid : (sgN c k e.1 e.2).id = sgName t i
    · obtain ⟨h1, h2⟩ := sgName_inj (show sgName e.1 e.2 = sgName t i from hid)
      simp only
      rw [if_pos ⟨hid, trivial⟩]
      have : sgFind col none (sgN c k e.1 e.2).params = some (c.val t col i) := by
        rw [h1, h2]
        exact sgFind_of c t i col _ hcol
      rw [this]
    · simp only
      rw [if_neg (fun hh => hid hh.1), if_neg (fun hh => hid hh.1)]
      apply ih
      rcases List.mem_cons.1 he with he | he
      · subst he
        exact absurd rfl hid
      · exact he

theorem sgVal_entry {c : SgCase} (h : SgComplete c) {t : SgTable} {i : Nat} (hi : i < c.count t) {col : Tok} (hcol : col ∈ t.columns ++ t.places) :
    c.entry t col i = some (c.val t col i) := by
  have := (h t).2 col hcol i hi
  unfold SgCase.val
  cases he : c.entry t col i with
  | none => rw [he] at this; cases this
  | some v => rfl

/-- **C234.** For every case that the screening accepts, the parameter of an element and a column that the constraints read (`m.para["Gen3_PMAX"]`) and the value found in the
graph of parameters are the entry of the case for that element and column; there are no other parameters. -/
theorem C234_values (c : SgCase) (ps : List SgParam) (h : sgRead c = .ok ps) :
    (∀ t i, i < c.count t → ∀ col ∈ t.columns, ∃ v, c.entry t col i = some v ∧
      sgParaGet (sgPara (sgNodes ps)) (sgKey t i col) = .ok v ∧
      sgValue (sgNodes ps) (sgName t i) col false none "parameter".toList = .ok (some v)) ∧
    (∀ key, (∀ t i, i < c.count t → ∀ col ∈ t.columns, key ≠ sgKey t i col) → sgParaGet (sgPara (sgNodes ps)) key = .error .key) := by
  have hc : SgComplete c := (C235_accepted c).1 ⟨ps, h⟩
  rw [sgRead_ok hc] at h
  injection h with h
  subst h
  rw [sgNodes_eq]
  constructor
  · intro t i hi col hcol
    refine ⟨c.val t col i, sgVal_entry hc hi (List.mem_append_left _ hcol), ?_, sgValue_from c t i col hcol _ ((sgElems_mem c t i).2 hi) 0⟩
    rw [sgPara_from]
    apply sgParaGet_of
    · rw [List.mem_flatMap]
      exact ⟨(t, i), (sgElems_mem c t i).2 hi, List.mem_map.2 ⟨col, hcol, rfl⟩⟩
    · intro e he hk
      obtain ⟨⟨t', i'⟩, _, he⟩ := List.mem_flatMap.1 he
      obtain ⟨col', _, rfl⟩ := List.mem_map.1 he
      obtain ⟨rfl, rfl, rfl⟩ := sgKey_inj hk
      rfl
  · intro key hkey
    rw [sgPara_from]
    apply sgParaGet_none
    intro e he hk
    obtain ⟨⟨t', i'⟩, hm, he⟩ := List.mem_flatMap.1 he
    obtain ⟨col', hc', rfl⟩ := List.mem_map.1 he
    exact hkey t' i' ((sgElems_mem c t' i').1 hm) col' hc' hk.symm

/-! ## the edges -/

theorem sgNodesFrom_append (c : SgCase) (a b : List (SgTable × Nat)) (k : Nat) : sgNodesFrom c k (a ++ b) = sgNodesFrom c k a ++ sgNodesFrom c (k + a.length) b := by
  induction a generalizing k with
  | nil => rfl
  | cons e a ih =>
    show sgN c k e.1 e.2 :: sgNodesFrom c (k + 1) (a ++ b) = _
    rw [ih]
    show _ = (sgN c k e.1 e.2 :: sgNodesFrom c (k + 1) a) ++ sgNodesFrom c (k + (a.length + 1)) b
    rw [show k + (a.length + 1) = k + 1 + a.length by omega]
    rfl

theorem sgNodesFrom_range (c : SgCase) (t : SgTable) (k n : Nat) : sgNodesFrom c k ((List.range n).map (fun i => (t, i))) = (List.range n).map (fun i => sgN c (k + i) t i) := by
  induction n with
  | zero => rfl
  | succ n ih =>
    rw [List.range_succ, List.map_append, sgNodesFrom_append, ih, List.map_append]
    congr 1
    simp [sgNodesFrom]

theorem sgNodes_list (c : SgCase) : sgNodes (sgAll c).flatten = (List.range c.noGen).map (fun i => sgN c i .gen i) ++
    (List.range c.noBus).map (fun j => sgN c (c.noGen + j) .bus j) ++ (List.range c.noBranch).map (fun k => sgN c (c.noGen + c.noBus + k) .branch k) := by
  rw [sgNodes_eq]
  unfold sgElems
  rw [sgNodesFrom_append, sgNodesFrom_append, sgNodesFrom_range, sgNodesFrom_range, sgNodesFrom_range]
  simp

theorem sgGenEdge_eq (n : SgNode) (l : List SgNode) (h : (l.filter (fun a => decide (a.kind = .bus ∧ n.bus = a.bus))).length ≤ 1) :
    sgGenEdge n l = (l.filter (fun a => decide (a.kind = .bus ∧ n.bus = a.bus))).map (fun a => (a.node, n.node)) := by
  induction l with
  | nil => rfl
  | cons a l ih =>
    unfold sgGenEdge
    by_cases ha : a.kind = .bus ∧ n.bus = a.bus
    · rw [if_pos ha]
      rw [List.filter_cons_of_pos (by simpa using ha)] at h ⊢
      have : l.filter (fun a => decide (a.kind = .bus ∧ n.bus = a.bus)) = [] := by
        apply List.length_eq_zero_iff.1
        simp only [List.length_cons] at h
        omega
      rw [this]
      rfl
    · rw [if_neg ha]
      rw [List.filter_cons_of_neg (by simpa using ha)] at h ⊢
      exact ih h

theorem sgBranchEdges_perm (n : SgNode) (f t : Rat) (l : List SgNode) (f0 f1 : Bool)
    (hf : (l.filter (fun a => decide (a.kind = .bus ∧ some f = a.bus))).length ≤ if f0 then 0 else 1)
    (ht : (l.filter (fun a => decide (a.kind = .bus ∧ some t = a.bus ∧ t ≠ f))).length ≤ if f1 then 0 else 1) :
    (sgBranchEdges n f t f0 f1 l).Perm ((l.filter (fun a => decide (a.kind = .bus ∧ some f = a.bus))).map (fun a => (a.node, n.node)) ++
      (l.filter (fun a => decide (a.kind = .bus ∧ some t = a.bus ∧ t ≠ f))).map (fun a => (n.node, a.node))) := by
  induction l generalizing f0 f1 with
  | nil => exact List.Perm.refl _
  | cons a l ih =>
    unfold sgBranchEdges
    by_cases ha : a.kind = .bus ∧ some f = a.bus
    · have hb : ¬ (a.kind = .bus ∧ some t = a.bus ∧ t ≠ f) := by
        rintro ⟨_, h2, h3⟩
        rw [← ha.2] at h2
        exact h3 (Option.some.inj h2)
      rw [if_pos ha]
      rw [List.filter_cons_of_pos (by simpa using ha)] at hf ⊢
      rw [List.filter_cons_of_neg (by simpa using hb)] at ht ⊢
      rw [List.map_cons, List.cons_append]
      apply List.Perm.cons
      cases f0 with
      | true => simp at hf
      | false =>
        simp only [List.length_cons, Bool.false_eq_true, if_false] at hf
        cases f1 with
        | true =>
          simp only [if_true, Nat.le_zero, List.length_eq_zero_iff] at ht
          have hf' : l.filter (fun a => decide (a.kind = .bus ∧ some f = a.bus)) = [] := List.length_eq_zero_iff.1 (by omega)
          rw [ht, hf']
          exact List.Perm.refl _
        | false =>
          rw [if_neg (by simp)]
          exact ih _ _ (by simp only [if_true]; omega) ht
    · rw [if_neg ha]
      rw [List.filter_cons_of_neg (by simpa using ha)] at hf ⊢
      by_cases hb : a.kind = .bus ∧ some t = a.bus
      · have hb' : a.kind = .bus ∧ some t = a.bus ∧ t ≠ f := ⟨hb.1, hb.2, fun h => ha ⟨hb.1, h ▸ hb.2⟩⟩
        rw [if_pos hb]
        rw [List.filter_cons_of_pos (by simpa using hb')] at ht ⊢
        rw [List.map_cons]
        refine List.Perm.trans ?_ List.perm_middle.symm
        apply List.Perm.cons
        cases f1 with
        | true => simp at ht
        | false =>
          simp only [List.length_cons, Bool.false_eq_true, if_false] at ht
          cases f0 with
          | true =>
            simp only [if_true, Nat.le_zero, List.length_eq_zero_iff] at hf
            have ht' : l.filter (fun a => decide (a.kind = .bus ∧ some t = a.bus ∧ t ≠ f)) = [] := List.length_eq_zero_iff.1 (by omega)
            rw [hf, ht']
            exact List.Perm.refl _
          | false =>
            rw [if_neg (by simp)]
            exact ih _ _ hf (by simp only [if_true]; omega)
      · have hb' : ¬ (a.kind = .bus ∧ some t = a.bus ∧ t ≠ f) := fun h => hb ⟨h.1, h.2.1⟩
        rw [if_neg hb]
        rw [List.filter_cons_of_neg (by simpa using hb')] at ht ⊢
        by_cases hs : f0 = true ∧ f1 = true
        · rw [if_pos hs]
          rw [hs.1, if_pos rfl, Nat.le_zero, List.length_eq_zero_iff] at hf
          rw [hs.2, if_pos rfl, Nat.le_zero, List.length_eq_zero_iff] at ht
          rw [hf, ht]
          exact List.Perm.refl _
        · rw [if_neg hs]
          exact ih _ _ hf ht

/-- the edges that the graph should have: the generators come first, then the buses, then the branches; each generator is joined to its bus, each branch to the bus where it
starts and, if that is another one, to the bus where it ends -/
def sgWanted (c : SgCase) : List (Nat × Nat) :=
  (List.range c.noGen).flatMap (fun i =>
    ((List.range c.noBus).filter (fun j => decide (c.entry .gen "GEN_BUS".toList i = c.entry .bus "BUS_I".toList j))).map (fun j => (c.noGen + j, i))) ++
  (List.range c.noBranch).flatMap (fun k =>
    ((List.range c.noBus).filter (fun j => decide (c.entry .branch "F_BUS".toList k = c.entry .bus "BUS_I".toList j))).map (fun j => (c.noGen + j, c.noGen + c.noBus + k)) ++
    ((List.range c.noBus).filter (fun j => decide (c.entry .branch "T_BUS".toList k = c.entry .bus "BUS_I".toList j ∧
      c.entry .branch "T_BUS".toList k ≠ c.entry .branch "F_BUS".toList k))).map (fun j => (c.noGen + c.noBus + k, c.noGen + j)))

theorem sg_filter_nodes (c : SgCase) (P : Option Rat → Bool) :
    (sgNodes (sgAll c).flatten).filter (fun a => decide (a.kind = .bus ∧ P a.bus = true)) =
    ((List.range c.noBus).filter (fun j => P (some (c.val .bus "BUS_I".toList j)))).map (fun j => sgN c (c.noGen + j) .bus j) := by
  rw [sgNodes_list, List.filter_append, List.filter_append]
  have e1 : ((List.range c.noGen).map (fun i => sgN c i .gen i)).filter (fun a => decide (a.kind = .bus ∧ P a.bus = true)) = [] := by
    rw [List.filter_eq_nil_iff]
    intro a ha
    obtain ⟨i, _, rfl⟩ := List.mem_map.1 ha
    simp [sgN, sgKindOf]
  have e2 : ((List.range c.noBranch).map (fun k => sgN c (c.noGen + c.noBus + k) .branch k)).filter (fun a => decide (a.kind = .bus ∧ P a.bus = true)) = [] := by
    rw [List.filter_eq_nil_iff]
    intro a ha
    obtain ⟨i, _, rfl⟩ := List.mem_map.1 ha
    simp [sgN, sgKindOf]
  rw [e1, e2, List.nil_append, List.append_nil, List.filter_map]
  congr 1
  apply List.filter_congr
  intro j _
  simp [sgN, sgKindOf, sgBusOf]

theorem sg_one {P : Nat → Bool} (n : Nat) (h : ∀ i < n, ∀ j < n, P i = true → P j = true → i = j) : ((List.range n).filter P).length ≤ 1 := by
  have hn : ((List.range n).filter P).Nodup := List.nodup_range.filter _
  have hall : ∀ a ∈ (List.range n).filter P, ∀ b ∈ (List.range n).filter P, a = b := by
    intro a ha b hb
    rw [List.mem_filter, List.mem_range] at ha hb
    exact h a ha.1 b hb.1 ha.2 hb.2
  match hl : (List.range n).filter P with
  | [] => simp
  | [_] => simp
  | a :: b :: r =>
    rw [hl] at hn hall
    have := hall a (by simp) b (by simp)
    rw [List.nodup_cons] at hn
    exact absurd (by rw [this]; simp) hn.1

/-- **C236.** If the buses have different numbers, the graph of parameters joins each generator to its bus and each branch to the buses at its ends (once, if they are the same), and
has no other edges. -/
theorem C236_edges (c : SgCase) (ps : List SgParam) (h : sgRead c = .ok ps)
    (hb : ∀ i < c.noBus, ∀ j < c.noBus, c.entry .bus "BUS_I".toList i = c.entry .bus "BUS_I".toList j → i = j) :
    (sgEdges (sgNodes ps)).Perm (sgWanted c) := by
  have hc : SgComplete c := (C235_accepted c).1 ⟨ps, h⟩
  rw [sgRead_ok hc] at h
  injection h with h
  subst h
  have hbv : ∀ j < c.noBus, c.entry .bus "BUS_I".toList j = some (c.val .bus "BUS_I".toList j) := fun j hj =>
    sgVal_entry hc (t := .bus) hj (by simp [SgTable.places])
  have hinj : ∀ i < c.noBus, ∀ j < c.noBus, c.val .bus "BUS_I".toList i = c.val .bus "BUS_I".toList j → i = j := by
    intro i hi j hj hh
    exact hb i hi j hj (by rw [hbv i hi, hbv j hj, hh])
  have hgen : ∀ i < c.noGen, sgGenEdge (sgN c i .gen i) (sgNodes (sgAll c).flatten) =
      ((List.range c.noBus).filter (fun j => decide (c.entry .gen "GEN_BUS".toList i = c.entry .bus "BUS_I".toList j))).map (fun j => (c.noGen + j, i)) := by
    intro i hi
    have hg : c.entry .gen "GEN_BUS".toList i = some (c.val .gen "GEN_BUS".toList i) := sgVal_entry hc (t := .gen) hi (by simp [SgTable.places])
    have hfil := sg_filter_nodes c (fun b => decide ((sgN c i .gen i).bus = b))
    simp only [decide_eq_true_eq] at hfil
    rw [sgGenEdge_eq, hfil, List.map_map]
    · have : (List.range c.noBus).filter (fun j => decide ((sgN c i .gen i).bus = some (c.val .bus "BUS_I".toList j))) =
          (List.range c.noBus).filter (fun j => decide (c.entry .gen "GEN_BUS".toList i = c.entry .bus "BUS_I".toList j)) := by
        apply List.filter_congr
        intro j hj
        rw [hg, hbv j (List.mem_range.1 hj)]
        rfl
      rw [this]
      rfl
    · rw [hfil, List.length_map]
      apply sg_one
      intro a ha b hb' h1 h2
      simp only [decide_eq_true_eq] at h1 h2
      exact hinj a ha b hb' (Option.some.inj (h1.symm.trans h2))
  have hbr : ∀ k < c.noBranch, (sgBranchEdges (sgN c (c.noGen + c.noBus + k) .branch k) (c.val .branch "F_BUS".toList k) (c.val .branch "T_BUS".toList k) false false (sgNodes (sgAll c).flatten)).Perm
      (((List.range c.noBus).filter (fun j => decide (c.entry .branch "F_BUS".toList k = c.entry .bus "BUS_I".toList j))).map (fun j => (c.noGen + j, c.noGen + c.noBus + k)) ++
       ((List.range c.noBus).filter (fun j => decide (c.entry .branch "T_BUS".toList k = c.entry .bus "BUS_I".toList j ∧
        c.entry .branch "T_BUS".toList k ≠ c.entry .branch "F_BUS".toList k))).map (fun j => (c.noGen + c.noBus + k, c.noGen + j))) := by
    intro k hk
    have hF : c.entry .branch "F_BUS".toList k = some (c.val .branch "F_BUS".toList k) := sgVal_entry hc (t := .branch) hk (by simp [SgTable.places])
    have hT : c.entry .branch "T_BUS".toList k = some (c.val .branch "T_BUS".toList k) := sgVal_entry hc (t := .branch) hk (by simp [SgTable.places])
    generalize hfv : c.val .branch "F_BUS".toList k = f at hF
    generalize htv : c.val .branch "T_BUS".toList k = t at hT
    have fil1 := sg_filter_nodes c (fun b => decide (some f = b))
    have fil2 := sg_filter_nodes c (fun b => decide (some t = b ∧ t ≠ f))
    simp only [decide_eq_true_eq] at fil1 fil2
    have e1 : (List.range c.noBus).filter (fun j => decide (some f = some (c.val .bus "BUS_I".toList j))) =
        (List.range c.noBus).filter (fun j => decide (c.entry .branch "F_BUS".toList k = c.entry .bus "BUS_I".toList j)) := by
      apply List.filter_congr
      intro j hj
      rw [hF, hbv j (List.mem_range.1 hj)]
    have e2 : (List.range c.noBus).filter (fun j => decide (some t = some (c.val .bus "BUS_I".toList j) ∧ t ≠ f)) =
        (List.range c.noBus).filter (fun j => decide (c.entry .branch "T_BUS".toList k = c.entry .bus "BUS_I".toList j ∧
          c.entry .branch "T_BUS".toList k ≠ c.entry .branch "F_BUS".toList k)) := by
      apply List.filter_congr
      intro j hj
      rw [hT, hF, hbv j (List.mem_range.1 hj)]
      simp
    have hp := sgBranchEdges_perm (sgN c (c.noGen + c.noBus + k) .branch k) f t (sgNodes (sgAll c).flatten) false false
      (by
        rw [fil1, List.length_map]
        apply sg_one
        intro a ha b hb' h1 h2
        simp only [decide_eq_true_eq] at h1 h2
        exact hinj a ha b hb' (Option.some.inj (h1.symm.trans h2)))
      (by
        rw [fil2, List.length_map]
        apply sg_one
        intro a ha b hb' h1 h2
        simp only [decide_eq_true_eq] at h1 h2
        exact hinj a ha b hb' (Option.some.inj (h1.1.symm.trans h2.1)))
    rw [fil1, fil2, List.map_map, List.map_map, e1, e2] at hp
    exact hp
  unfold sgEdges
  generalize hN : sgNodes (sgAll c).flatten = N at hgen hbr
  have hN' := hN.symm.trans (sgNodes_list c)
  conv_lhs =>
    arg 2
    rw [hN']
  rw [List.flatMap_append, List.flatMap_append, List.flatMap_map, List.flatMap_map, List.flatMap_map]
  unfold sgWanted
  have z : (List.range c.noBus).flatMap (fun j => sgNodeEdges N (sgN c (c.noGen + j) .bus j)) = [] := by
    rw [List.flatMap_eq_nil_iff]
    intro j _
    rfl
  rw [z, List.append_nil]
  apply List.Perm.append
  · apply List.Perm.of_eq
    apply List.flatMap_congr
    intro i hi
    exact hgen i (List.mem_range.1 hi)
  · apply List.Perm.flatMap_left
    intro k hk
    exact hbr k (List.mem_range.1 hk)

/-! ## witnesses -/

/-- a case with one generator, two buses and a branch between them -/
def exSgCase : SgCase where
  noGen := 1
  noBus := 2
  noBranch := 1
  gen := fun col => if col = "GEN_BUS".toList then some [7] else some [100]
  bus := fun col => if col = "BUS_I".toList then some [5, 7] else some [1, 2]
  branch := fun col => if col = "F_BUS".toList then some [7] else if col = "T_BUS".toList then some [5] else some [30]

theorem C234_witness : (∃ ps, sgRead exSgCase = .ok ps) ∧
    exSgCase.entry .bus "PD".toList 1 = some 2 ∧ (1 : Nat) < exSgCase.count .bus ∧ sgKey .bus 1 "PD".toList = "Bus1_PD".toList := by
  refine ⟨(C235_accepted _).2 ?_, rfl, by decide, by decide⟩
  intro t
  refine ⟨by cases t <;> decide, ?_⟩
  intro col hcol i hi
  cases t with
  | gen =>
    have : i = 0 := by simp only [SgCase.count, exSgCase] at hi; omega
    subst this
    simp only [SgCase.entry, SgCase.table, exSgCase]
    split <;> rfl
  | bus =>
    have : i = 0 ∨ i = 1 := by simp only [SgCase.count, exSgCase] at hi; omega
    simp only [SgCase.entry, SgCase.table, exSgCase]
    rcases this with rfl | rfl <;> (split <;> rfl)
  | branch =>
    have : i = 0 := by simp only [SgCase.count, exSgCase] at hi; omega
    subst this
    simp only [SgCase.entry, SgCase.table, exSgCase]
    split
    · rfl
    · split <;> rfl

theorem C235_witness : SgComplete exSgCase ∧ ¬ SgComplete { exSgCase with noGen := 0 } :=
  ⟨(C235_accepted _).1 C234_witness.1, fun h => absurd (h .gen).1 (by decide)⟩

theorem C236_witness : (∀ i < exSgCase.noBus, ∀ j < exSgCase.noBus, exSgCase.entry .bus "BUS_I".toList i = exSgCase.entry .bus "BUS_I".toList j → i = j) ∧
    sgWanted exSgCase = [(2, 0), (2, 3), (3, 1)] := by
  constructor
  · decide +kernel
  · decide +kernel

end Pyensys
