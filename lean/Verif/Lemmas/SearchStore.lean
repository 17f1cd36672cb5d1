import Verif.Lemmas.SearchBasic
import Mathlib.Logic.Relation
import Mathlib.Tactic.Ring

/-!
# The stored plans seen as lists of rows

The four containers of a plan are the four columns of one list of keyed rows; every operation of the
search keeps it that way.
-/

namespace Pyensys

/-- One stored solution. -/
structure Row where
  sol : Sol
  op : Rat
  inv : Rat
  path : Path

/-- column of a list of keyed rows -/
def col {V : Type} (f : Row → V) (R : List (Int × Row)) : List (Int × V) :=
  R.map (fun e => (e.1, f e.2))

/-- the plan with rows `R` -/
def planOf (R : List (Int × Row)) : Plan :=
  ⟨col Row.sol R, col Row.op R, col Row.inv R, col Row.path R⟩

@[simp] theorem keys_col {V : Type} (f : Row → V) (R : List (Int × Row)) :
    (col f R).map (·.1) = R.map (·.1) := by simp [col, Function.comp_def]
@[simp] theorem length_col {V : Type} (f : Row → V) (R : List (Int × Row)) :
    (col f R).length = R.length := by simp [col]
theorem col_append {V : Type} (f : Row → V) (R S : List (Int × Row)) :
    col f (R ++ S) = col f R ++ col f S := by simp [col]
@[simp] theorem col_nil {V : Type} (f : Row → V) : col f [] = [] := rfl

theorem mem_keys_col {V : Type} {f : Row → V} {R : List (Int × Row)} {k : Int} :
    k ∈ (col f R).map (·.1) ↔ k ∈ R.map (·.1) := by rw [keys_col]

/-- pop commutes with taking a column -/
theorem popOnly_col {V : Type} (f : Row → V) {R : List (Int × Row)} {k : Int}
    (hk : k ∈ R.map (·.1)) {R' : List (Int × Row)} (h : popOnly R k = .ok R') :
    popOnly (col f R) k = .ok (col f R') := by
  obtain ⟨a, v, b, rfl, hb, hp⟩ := popOnly_ok hk
  rw [hp] at h
  cases h
  unfold popOnly
  rw [col_append]
  have : col f ((k, v) :: b) = (k, f v) :: col f b := rfl
  rw [this, listPop_hit]
  · simp [col_append]
  · intro e he
    obtain ⟨x, hx, rfl⟩ := List.mem_map.1 he
    exact hb x hx

theorem rekey_ok {V : Type} {l : List (Int × V)} {k num : Int} (hk : k ∈ l.map (·.1)) :
    ∃ a v b, l = a ++ (k, v) :: b ∧ (∀ e ∈ b, e.1 ≠ k) ∧
      rekey l k num = .ok (a ++ b ++ [(num, v)]) := by
  obtain ⟨e, he, hek⟩ := List.mem_map.1 hk
  obtain ⟨a, v, b, rfl, hb⟩ := exists_last_split k l ⟨e, he, hek⟩
  refine ⟨a, v, b, rfl, hb, ?_⟩
  unfold rekey
  rw [listPop_hit k a b v hb]

theorem rekey_col {V : Type} (f : Row → V) {R : List (Int × Row)} {k num : Int}
    (hk : k ∈ R.map (·.1)) {R' : List (Int × Row)} (h : rekey R k num = .ok R') :
    rekey (col f R) k num = .ok (col f R') := by
  obtain ⟨a, v, b, rfl, hb, hp⟩ := rekey_ok (num := num) hk
  rw [hp] at h
  cases h
  unfold rekey
  rw [col_append]
  have : col f ((k, v) :: b) = (k, f v) :: col f b := rfl
  rw [this, listPop_hit]
  · simp [col]
  · intro e he
    obtain ⟨x, hx, rfl⟩ := List.mem_map.1 he
    exact hb x hx

theorem listGet?_col {V : Type} (f : Row → V) (R : List (Int × Row)) (k : Int) :
    listGet? (col f R) k = (listGet? R k).map f := by
  unfold listGet? col
  induction R with
  | nil => rfl
  | cons x R ih =>
    simp only [List.map_cons, List.find?_cons]
    by_cases hx : x.1 = k
    · simp [hx]
    · simp only [hx, decide_false]
      exact ih

theorem listSet_col {V : Type} (f : Row → V) (R : List (Int × Row)) (k : Int) (r : Row) :
    listSet (col f R) k (f r) = col f (listSet R k r) := by
  unfold listSet col
  rw [List.map_map, List.map_map]
  apply List.map_congr_left
  intro e _
  simp only [Function.comp]
  split <;> rfl

theorem listGet?_isSome {V : Type} {l : List (Int × V)} {k : Int} (h : k ∈ l.map (·.1)) :
    ∃ v, listGet? l k = some v ∧ (k, v) ∈ l := by
  rw [← dictGet?_eq_listGet?]
  obtain ⟨v, hv⟩ := Option.isSome_iff_exists.1 ((dictGet?_isSome_iff l k).2 h)
  exact ⟨v, hv, dictGet?_mem hv⟩

/-! ### alignment of the store -/

/-- The incumbent, the partial tree and the complete plan are lists of rows. -/
structure Stored (info : Info) (R P C : List (Int × Row)) : Prop where
  inc : info.incumbent = planOf R
  part : info.partialTree = planOf P
  comp : info.complete = planOf C

theorem Stored.incInt {info R P C} (h : Stored info R P C) : info.incInt = col Row.sol R :=
  congrArg Plan.interventions h.inc
theorem Stored.incOp {info R P C} (h : Stored info R P C) : info.incOp = col Row.op R :=
  congrArg Plan.operationCosts h.inc
theorem Stored.incInv {info R P C} (h : Stored info R P C) : info.incInv = col Row.inv R :=
  congrArg Plan.investmentCosts h.inc
theorem Stored.incPaths {info R P C} (h : Stored info R P C) : info.incPaths = col Row.path R :=
  congrArg Plan.graphPaths h.inc

theorem isEmpty_planOf (R : List (Int × Row)) : (planOf R).isEmpty = .ok (decide (R.length = 0)) := by
  simp [Plan.isEmpty, planOf]

/-- Fields of `Info` outside the three stored plans and the flag `allowDel`. -/
structure SameRest (a b : Info) : Prop where
  candPath : b.candPath = a.candPath
  candOp : b.candOp = a.candOp
  candInt : b.candInt = a.candInt
  candTime : b.candTime = a.candTime
  newInt : b.newInt = a.newInt
  newTime : b.newTime = a.newTime
  node : b.node = a.node
  level : b.level = a.level
  lastReached : b.lastReached = a.lastReached
  log : b.log = a.log
  lastCost : b.lastCost = a.lastCost

theorem SameRest.refl (a : Info) : SameRest a a := by constructor <;> rfl
theorem SameRest.trans {a b c : Info} (h : SameRest a b) (g : SameRest b c) : SameRest a c := by
  constructor
  · rw [g.candPath, h.candPath]
  · rw [g.candOp, h.candOp]
  · rw [g.candInt, h.candInt]
  · rw [g.candTime, h.candTime]
  · rw [g.newInt, h.newInt]
  · rw [g.newTime, h.newTime]
  · rw [g.node, h.node]
  · rw [g.level, h.level]
  · rw [g.lastReached, h.lastReached]
  · rw [g.log, h.log]
  · rw [g.lastCost, h.lastCost]

/-- the last entry with key `k` is removed -/
def DropLast (k : Int) (R R' : List (Int × Row)) : Prop :=
  ∃ a v b, R = a ++ (k, v) :: b ∧ (∀ e ∈ b, e.1 ≠ k) ∧ R' = a ++ b

theorem DropLast.sublist {k R R'} (h : DropLast k R R') : R'.Sublist R := by
  obtain ⟨a, v, b, rfl, _, rfl⟩ := h
  exact (List.Sublist.refl a).append (List.sublist_cons_self _ _)

theorem DropLast.perm {k R R'} (h : DropLast k R R') :
    (R.map (·.1)).Perm (k :: R'.map (·.1)) := by
  obtain ⟨a, v, b, rfl, _, rfl⟩ := h
  simp only [List.map_append, List.map_cons]
  exact List.perm_middle

theorem deleteKey_spec {info R P C} (h : Stored info R P C) {k : Int} (hk : k ∈ R.map (·.1)) :
    ∃ info' R' P', deleteKey info k = .ok info' ∧ Stored info' R' P' C ∧ DropLast k R R' ∧
      (P' = P ∨ DropLast k P P') ∧ SameRest info info' ∧ info'.allowDel = info.allowDel := by
  obtain ⟨a, v, b, hR, hb, hp⟩ := popOnly_ok hk
  have h1 := popOnly_col Row.sol hk hp
  have h2 := popOnly_col Row.path hk hp
  have h3 := popOnly_col Row.op hk hp
  have h4 := popOnly_col Row.inv hk hp
  unfold deleteKey
  rw [h.incInt, h.incPaths, h.incOp, h.incInv, h1, h2, h3, h4]
  simp only [exc_bind_ok]
  split
  · next hc =>
    have hs : (listGet? info.partialTree.interventions k).isSome := by
      simp only [Bool.and_eq_true] at hc; exact hc.2
    have hkP : k ∈ P.map (·.1) := by
      rw [h.part] at hs
      have := (dictGet?_isSome_iff (col Row.sol P) k).1 hs
      rwa [keys_col] at this
    obtain ⟨a', v', b', hP, hb', hp'⟩ := popOnly_ok hkP
    have g1 := popOnly_col Row.sol hkP hp'
    have g2 := popOnly_col Row.path hkP hp'
    have g3 := popOnly_col Row.op hkP hp'
    have g4 := popOnly_col Row.inv hkP hp'
    rw [h.part]
    simp only [planOf]
    rw [g1, g2, g3, g4]
    refine ⟨_, a ++ b, a' ++ b', rfl, ⟨rfl, rfl, h.comp⟩, ⟨a, v, b, hR, hb, rfl⟩,
      Or.inr ⟨a', v', b', hP, hb', rfl⟩, by constructor <;> rfl, rfl⟩
  · refine ⟨_, a ++ b, P, rfl, ⟨rfl, h.part, h.comp⟩, ⟨a, v, b, hR, hb, rfl⟩,
      Or.inl rfl, by constructor <;> rfl, rfl⟩

theorem deleteKeys_spec (ks : List Int) {info R P C} (h : Stored info R P C)
    (hk : ks.Subperm (R.map (·.1))) :
    ∃ info' R' P', ks.foldlM deleteKey info = .ok info' ∧ Stored info' R' P' C ∧ R'.Sublist R ∧
      P'.Sublist P ∧ SameRest info info' ∧ info'.allowDel = info.allowDel := by
  induction ks generalizing info R P with
  | nil => exact ⟨info, R, P, rfl, h, List.Sublist.refl _, List.Sublist.refl _, SameRest.refl _, rfl⟩
  | cons k ks ih =>
    have hkR : k ∈ R.map (·.1) := hk.subset (by simp)
    obtain ⟨i1, R1, P1, he, hs, hd, hP, hr, ha⟩ := deleteKey_spec h hkR
    have hk1 : ks.Subperm (R1.map (·.1)) := by
      have := (hd.perm.subperm_left).1 hk
      exact (List.subperm_cons k).1 this
    obtain ⟨i2, R2, P2, he2, hs2, hd2, hP2, hr2, ha2⟩ := ih hs hk1
    refine ⟨i2, R2, P2, ?_, hs2, hd2.trans hd.sublist, ?_, hr.trans hr2, ha2.trans ha⟩
    · rw [List.foldlM_cons, he, exc_bind_ok, he2]
    · refine hP2.trans ?_
      rcases hP with rfl | hP
      · exact List.Sublist.refl _
      · exact hP.sublist

theorem keysToRenumber_sublist (info : Info) :
    (keysToRenumber info).Sublist (info.incPaths.map (·.1)) := by
  unfold keysToRenumber
  simp only
  generalize info.incPaths.map (·.1) = r
  have : ∀ (keep r : List Int),
      (keep.foldl (fun r k => if r.contains k then r.erase k else r) r).Sublist r := by
    intro keep
    induction keep with
    | nil => intro r; exact List.Sublist.refl _
    | cons k keep ih =>
      intro r
      rw [List.foldl_cons]
      refine (ih _).trans ?_
      split
      · exact List.erase_sublist
      · exact List.Sublist.refl _
  exact this _ r

/-- the last entry with key `k` is moved to the end and gets key `num` -/
def MoveLast (k num : Int) (R R' : List (Int × Row)) : Prop :=
  ∃ a v b, R = a ++ (k, v) :: b ∧ (∀ e ∈ b, e.1 ≠ k) ∧ R' = a ++ b ++ [(num, v)]

theorem renumberOne_spec {info R P C} (h : Stored info R P C) {k : Int} (hk : k ∈ R.map (·.1))
    (num : Int) :
    ∃ info' R', renumberOne info num k = .ok info' ∧ Stored info' R' P C ∧ MoveLast k num R R' ∧
      SameRest info info' ∧ info'.allowDel = info.allowDel := by
  obtain ⟨a, v, b, hR, hb, hp⟩ := rekey_ok (num := num) hk
  have h1 := rekey_col Row.sol hk hp
  have h2 := rekey_col Row.path hk hp
  have h3 := rekey_col Row.op hk hp
  have h4 := rekey_col Row.inv hk hp
  unfold renumberOne
  rw [h.incInt, h.incPaths, h.incOp, h.incInv, h1, h2, h3, h4]
  exact ⟨_, a ++ b ++ [(num, v)], rfl, ⟨rfl, h.part, h.comp⟩, ⟨a, v, b, hR, hb, rfl⟩,
    by constructor <;> rfl, rfl⟩

theorem MoveLast.perm_rows {k num R R'} (h : MoveLast k num R R') :
    (R'.map (·.2)).Perm (R.map (·.2)) := by
  obtain ⟨a, v, b, rfl, _, rfl⟩ := h
  simp only [List.map_append, List.map_cons, List.map_nil]
  refine (List.perm_append_comm).trans ?_
  simpa using List.perm_middle.symm

theorem renumberFold_spec (ks : List (Int × Nat)) {info R P C} (h : Stored info R P C)
    (hk : (ks.map (·.1)).Subperm (R.map (·.1))) :
    ∃ info' R', ks.foldlM (fun info p => renumberOne info (p.2 : Int) p.1) info = .ok info' ∧
      Stored info' R' P C ∧ (R'.map (·.2)).Perm (R.map (·.2)) ∧
      SameRest info info' ∧ info'.allowDel = info.allowDel := by
  induction ks generalizing info R with
  | nil => exact ⟨info, R, rfl, h, List.Perm.refl _, SameRest.refl _, rfl⟩
  | cons k ks ih =>
    have hkR : k.1 ∈ R.map (·.1) := hk.subset (by simp)
    obtain ⟨i1, R1, he, hs, hm, hr, ha⟩ := renumberOne_spec h hkR (k.2 : Int)
    have hk1 : (ks.map (·.1)).Subperm (R1.map (·.1)) := by
      obtain ⟨a, v, b, rfl, _, rfl⟩ := hm
      have h1 : ((a ++ (k.1, v) :: b).map (·.1)).Perm (k.1 :: (a ++ b).map (·.1)) := by
        simp only [List.map_append, List.map_cons]; exact List.perm_middle
      have h2 := (h1.subperm_left).1 hk
      have h3 := (List.subperm_cons k.1).1 h2
      refine h3.trans ?_
      rw [List.map_append (l₂ := [_])]
      exact (List.sublist_append_left _ _).subperm
    obtain ⟨i2, R2, he2, hs2, hp2, hr2, ha2⟩ := ih hs hk1
    exact ⟨i2, R2, by rw [List.foldlM_cons, he, exc_bind_ok, he2], hs2, hp2.trans hm.perm_rows,
      hr.trans hr2, ha2.trans ha⟩

theorem renumberKeys_spec {info R P C} (h : Stored info R P C) :
    ∃ info' R', renumberKeys info = .ok info' ∧ Stored info' R' P C ∧
      (R'.map (·.2)).Perm (R.map (·.2)) ∧ SameRest info info' ∧ info'.allowDel = info.allowDel := by
  unfold renumberKeys
  apply renumberFold_spec _ h
  rw [List.zipIdx_map_fst]
  have := keysToRenumber_sublist info
  rw [h.incPaths, keys_col] at this
  exact this.subperm

theorem eliminateOffspring_spec {info R P C} (h : Stored info R P C) :
    ∃ info' R' P', eliminateOffspring info = .ok info' ∧ Stored info' R' P' C ∧
      (∃ R0 : List (Int × Row), R0.Sublist R ∧ (R'.map (·.2)).Perm (R0.map (·.2))) ∧ P'.Sublist P ∧
      SameRest info info' := by
  have hk : (offspringKeys info).Subperm (R.map (·.1)) := by
    unfold offspringKeys
    rw [h.incPaths]
    have : ((col Row.path R).filter (fun kp => pathContains kp.2 info.candPath)).Sublist
      (col Row.path R) := List.filter_sublist
    have := this.map (·.1)
    rw [keys_col] at this
    exact this.subperm
  obtain ⟨i1, R1, P1, he1, hs1, hR1, hP1, hr1, ha1⟩ := deleteKeys_spec (offspringKeys info) h hk
  obtain ⟨i2, R2, he2, hs2, hR2, hr2, ha2⟩ := renumberKeys_spec hs1
  unfold eliminateOffspring
  rw [he1, exc_bind_ok, he2, exc_bind_ok]
  split
  · exact ⟨_, R2, P1, rfl, ⟨hs2.inc, hs2.part, hs2.comp⟩, ⟨R1, hR1, hR2⟩, hP1,
      (hr1.trans hr2).trans (by constructor <;> rfl)⟩
  · exact ⟨_, R2, P1, rfl, hs2, ⟨R1, hR1, hR2⟩, hP1, hr1.trans hr2⟩

theorem storePartial_spec {info R P C} (h : Stored info R P C) :
    ∃ info' P', storePartial info = .ok info' ∧ Stored info' R P' C ∧ (P' = P ∨ P' = R) ∧
      SameRest info info' ∧ info'.allowDel = info.allowDel := by
  unfold storePartial
  have hE : info.partialTree.isEmpty = .ok (decide (P.length = 0)) := by
    rw [h.part, isEmpty_planOf]
  have hS : Stored { info with partialTree := info.incumbent } R R C := ⟨h.inc, h.inc, h.comp⟩
  have hrest : SameRest info { info with partialTree := info.incumbent } := by constructor <;> rfl
  rw [hE, exc_bind_ok]
  split
  · exact ⟨_, R, rfl, hS, Or.inr rfl, hrest, rfl⟩
  · split
    · exact ⟨_, R, rfl, hS, Or.inr rfl, hrest, rfl⟩
    · split
      · split
        · exact ⟨_, R, rfl, hS, Or.inr rfl, hrest, rfl⟩
        · exact ⟨_, P, rfl, h, Or.inl rfl, SameRest.refl _, rfl⟩
      · exact ⟨_, P, rfl, h, Or.inl rfl, SameRest.refl _, rfl⟩

theorem restorePartial_spec {info R P C} (h : Stored info R P C) :
    ∃ info' R', restorePartial info = .ok info' ∧ Stored info' R' P C ∧
      (R' = R ∨ (R = [] ∧ R' = P)) ∧ SameRest info info' ∧ info'.allowDel = info.allowDel := by
  unfold restorePartial
  have hE : info.partialTree.isEmpty = .ok (decide (P.length = 0)) := by
    rw [h.part, isEmpty_planOf]
  rw [hE, exc_bind_ok]
  split
  · next hc =>
    simp only [Bool.and_eq_true, beq_iff_eq] at hc
    refine ⟨_, P, rfl, ⟨h.part, h.part, h.comp⟩, Or.inr ⟨?_, rfl⟩, by constructor <;> rfl, rfl⟩
    rw [h.incPaths, length_col] at hc
    exact List.eq_nil_of_length_eq_zero hc.2
  · exact ⟨_, R, rfl, h, Or.inl rfl, SameRest.refl _, rfl⟩

/-- total cost of a list of rows -/
def totalCost (R : List (Int × Row)) : Rat := (R.map (fun e => e.2.inv + e.2.op)).sum

theorem totalPlanningCost_planOf (R : List (Int × Row)) :
    totalPlanningCost (col Row.inv R) (col Row.op R) = totalCost R := by
  unfold totalPlanningCost totalCost
  have : ∀ (acc : Rat), ((col Row.inv R).zip (col Row.op R)).foldl
      (fun c p => c + (p.1.2 + p.2.2)) acc = acc + (R.map (fun e => e.2.inv + e.2.op)).sum := by
    induction R with
    | nil => intro acc; simp
    | cons x R ih =>
      intro acc
      have h1 : col Row.inv (x :: R) = (x.1, x.2.inv) :: col Row.inv R := rfl
      have h2 : col Row.op (x :: R) = (x.1, x.2.op) :: col Row.op R := rfl
      rw [h1, h2, List.zip_cons_cons, List.foldl_cons, ih]
      simp only [List.map_cons, List.sum_cons]
      ring
  rw [this 0]; ring

theorem replaceTree_spec {info R P C} (h : Stored info R P C) :
    ∃ info' C', replaceTree info = .ok info' ∧ Stored info' R P C' ∧
      ((C' = R ∧ (C = [] ∨ totalCost R < totalCost C)) ∨
       (C' = C ∧ C ≠ [] ∧ totalCost C ≤ totalCost R)) ∧
      SameRest info info' ∧ info'.allowDel = info.allowDel := by
  unfold replaceTree
  have hE : info.complete.isEmpty = .ok (decide (C.length = 0)) := by
    rw [h.comp, isEmpty_planOf]
  have hS : Stored { info with complete := info.incumbent } R P R := ⟨h.inc, h.part, h.inc⟩
  have hrest : SameRest info { info with complete := info.incumbent } := by constructor <;> rfl
  have hc1 : totalPlanningCost info.complete.investmentCosts info.complete.operationCosts =
      totalCost C := by rw [h.comp]; exact totalPlanningCost_planOf C
  have hc2 : totalPlanningCost info.incInv info.incOp = totalCost R := by
    rw [h.incInv, h.incOp]; exact totalPlanningCost_planOf R
  rw [hE, exc_bind_ok, hc1, hc2]
  split
  · next hz =>
    have : C = [] := List.eq_nil_of_length_eq_zero (by simpa using hz)
    exact ⟨_, R, rfl, hS, Or.inl ⟨rfl, Or.inl this⟩, hrest, rfl⟩
  · next hz =>
    have hne : C ≠ [] := by
      rintro rfl; simp at hz
    split
    · next hlt => exact ⟨_, R, rfl, hS, Or.inl ⟨rfl, Or.inr hlt⟩, hrest, rfl⟩
    · next hlt => exact ⟨_, C, rfl, h, Or.inr ⟨rfl, hne, not_lt.1 hlt⟩, SameRest.refl _, rfl⟩

end Pyensys
