import Verif.Spec.Search
import Verif.Lemmas.Container
import Mathlib.Data.List.Nodup
import Mathlib.Data.List.Perm.Basic
import Mathlib.Tactic.Linarith
import Mathlib.Algebra.Order.Ring.Rat

/-! # Basic facts about the helpers of the search model -/

namespace Pyensys

@[simp] theorem exc_bind_ok {α β : Type} (a : α) (f : α → Except PyErr β) :
    ((Except.ok a : Except PyErr α) >>= f) = f a := rfl
@[simp] theorem exc_bind_error {α β : Type} (e : PyErr) (f : α → Except PyErr β) :
    ((Except.error e : Except PyErr α) >>= f) = Except.error e := rfl
@[simp] theorem exc_pure {α : Type} (a : α) : (pure a : Except PyErr α) = Except.ok a := rfl

theorem exc_bind_eq_ok {α β : Type} {x : Except PyErr α} {f : α → Except PyErr β} {b : β} :
    (x >>= f) = Except.ok b ↔ ∃ a, x = Except.ok a ∧ f a = Except.ok b := by
  cases x with
  | error e => simp
  | ok a => simp

instance : ReflBEq BinVar where
  rfl := by intro a; simp [BEq.beq, BinVar.pyEq]

theorem listGet?_of_mem {V : Type} {l : List (Int × V)} (hl : KeysNodup l) {k : Int} {v : V}
    (h : (k, v) ∈ l) : listGet? l k = some v := by
  rw [← dictGet?_eq_listGet?]; exact dictGet?_of_mem hl h

theorem keys_listSet {V : Type} (l : List (Int × V)) (k : Int) (v : V) :
    (listSet l k v).map (·.1) = l.map (·.1) := map_fst_setMap l k v

/-- pop on a list with distinct keys removes the entry with that key -/
theorem popOnly_nodup {V : Type} {l : List (Int × V)} (hl : KeysNodup l) {k : Int}
    (hk : k ∈ l.map (·.1)) : popOnly l k = .ok (l.filter (fun e => e.1 ≠ k)) := by
  obtain ⟨e, he, hek⟩ := List.mem_map.1 hk
  obtain ⟨a, v, b, rfl, hb⟩ := exists_last_split k l ⟨e, he, hek⟩
  have ha : ∀ e ∈ a, e.1 ≠ k := by
    intro e he hk
    simp only [KeysNodup, List.map_append, List.map_cons, List.nodup_append, List.mem_map] at hl
    exact hl.2.2 k ⟨e, he, hk⟩ k (by simp) rfl
  unfold popOnly
  rw [listPop_hit k a b v hb]
  simp only [List.filter_append, List.filter_cons]
  rw [List.filter_eq_self.2 (by simpa using ha), List.filter_eq_self.2 (by simpa using hb)]
  simp

/-- pop succeeds whenever the key is present -/
theorem popOnly_ok {V : Type} {l : List (Int × V)} {k : Int} (hk : k ∈ l.map (·.1)) :
    ∃ a v b, l = a ++ (k, v) :: b ∧ (∀ e ∈ b, e.1 ≠ k) ∧ popOnly l k = .ok (a ++ b) := by
  obtain ⟨e, he, hek⟩ := List.mem_map.1 hk
  obtain ⟨a, v, b, rfl, hb⟩ := exists_last_split k l ⟨e, he, hek⟩
  refine ⟨a, v, b, rfl, hb, ?_⟩
  unfold popOnly
  rw [listPop_hit k a b v hb]

@[simp] theorem popOnly_append_self {V : Type} (l : List (Int × V)) (k : Int) (v : V) :
    popOnly (l ++ [(k, v)]) k = .ok l := by
  unfold popOnly; simp

/-! ### shifting times -/

@[simp] theorem keys_shiftTimes (d : Int) (t : Times) : (shiftTimes d t).map (·.1) = t.map (·.1) := by
  simp [shiftTimes, Function.comp_def]

@[simp] theorem keys_shiftLevels (d : Int) (l : List (Int × Times)) :
    (shiftLevels d l).map (·.1) = l.map (·.1) := by
  simp [shiftLevels, Function.comp_def]

@[simp] theorem shiftTimes_zero (t : Times) : shiftTimes 0 t = t := by simp [shiftTimes]
@[simp] theorem shiftLevels_zero (t : List (Int × Times)) : shiftLevels 0 t = t := by
  simp [shiftLevels]
theorem shiftTimes_add (a b : Int) (t : Times) :
    shiftTimes a (shiftTimes b t) = shiftTimes (b + a) t := by
  simp [shiftTimes, Function.comp_def, Int.add_assoc]
theorem shiftLevels_add (a b : Int) (t : List (Int × Times)) :
    shiftLevels a (shiftLevels b t) = shiftLevels (b + a) t := by
  simp [shiftLevels, Function.comp_def, shiftTimes_add]
theorem shiftLevels_append (a : Int) (s t : List (Int × Times)) :
    shiftLevels a (s ++ t) = shiftLevels a s ++ shiftLevels a t := by
  simp [shiftLevels]

theorem bumpFold (period : Int) (ks : List Int) (t : Times) (ht : KeysNodup t) (hks : ks.Nodup)
    (hsub : ∀ k ∈ ks, k ∈ t.map (·.1)) :
    ks.foldlM (bumpKey period) t =
      .ok (t.map (fun kv => (kv.1, if kv.1 ∈ ks then kv.2 + period else kv.2))) := by
  induction ks generalizing t with
  | nil => simp [exc_pure]
  | cons k ks ih =>
    obtain ⟨e, he, hek⟩ := List.mem_map.1 (hsub k (by simp))
    have hget : listGet? t k = some e.2 := by
      apply listGet?_of_mem ht; rw [← hek]; exact he
    rw [List.foldlM_cons]
    have hb : bumpKey period t k = .ok (listSet t k (e.2 + period)) := by
      unfold bumpKey; rw [hget]
    rw [hb, exc_bind_ok, ih]
    · congr 1
      unfold listSet
      rw [List.map_map]
      apply List.map_congr_left
      intro x hx
      have hnk : k ∉ ks := (List.nodup_cons.1 hks).1
      by_cases hxk : x.1 = k
      · have hxe : x.2 = e.2 := by
          have h1 := listGet?_of_mem ht (k := x.1) (v := x.2) hx
          rw [hxk, hget] at h1
          exact (Option.some.inj h1).symm
        simp [hxk, hnk, hxe]
      · simp [hxk]
    · unfold KeysNodup; rw [keys_listSet]; exact ht
    · exact (List.nodup_cons.1 hks).2
    · intro k' hk'
      rw [keys_listSet]; exact hsub k' (by simp [hk'])

theorem bumpAll_eq (period : Int) (t : Times) (ht : KeysNodup t) :
    bumpAll period t = .ok (shiftTimes period t) := by
  unfold bumpAll
  rw [bumpFold period _ t ht ht (fun k hk => hk)]
  congr 1
  unfold shiftTimes
  apply List.map_congr_left
  intro x hx
  rw [if_pos (List.mem_map.2 ⟨x, hx, rfl⟩)]

theorem bumpLevels_eq (period : Int) (l : List (Int × Times)) (h : ∀ e ∈ l, KeysNodup e.2) :
    bumpLevels period l = .ok (shiftLevels period l) := by
  induction l with
  | nil => rfl
  | cons e l ih =>
    obtain ⟨k, t⟩ := e
    unfold bumpLevels
    rw [bumpAll_eq period t (h (k, t) (by simp)), exc_bind_ok, ih (fun e he => h e (by simp [he]))]
    rfl

theorem updateTimes_eq (period : Int) (info : Info) (h : ∀ e ∈ info.candTime, KeysNodup e.2)
    (hn : KeysNodup info.newTime) :
    updateTimes period info = .ok { info with
      candTime := shiftLevels period info.candTime, newTime := shiftTimes period info.newTime } := by
  unfold updateTimes
  rw [bumpLevels_eq period _ h, exc_bind_ok, bumpAll_eq period _ hn]
  rfl

/-! ### combinations -/

theorem mem_combos {α : Type} (n : Nat) (l c : List α) :
    c ∈ combos n l ↔ c.Sublist l ∧ c.length = n := by
  induction l generalizing n c with
  | nil =>
    cases n with
    | zero =>
      simp only [combos, List.mem_singleton, List.sublist_nil]
      constructor
      · rintro rfl; simp
      · exact fun h => h.1
    | succ n =>
      simp only [combos, List.not_mem_nil, List.sublist_nil, false_iff]
      rintro ⟨rfl, h⟩; simp at h
  | cons a l ih =>
    cases n with
    | zero =>
      simp only [combos, List.mem_singleton]
      constructor
      · rintro rfl; simp
      · intro h; exact List.eq_nil_of_length_eq_zero h.2
    | succ n =>
      simp only [combos, List.mem_append, List.mem_map, ih]
      constructor
      · rintro (⟨d, ⟨hd, hl⟩, rfl⟩ | ⟨h, hl⟩)
        · exact ⟨hd.cons_cons _, by simp [hl]⟩
        · exact ⟨h.cons _, hl⟩
      · rintro ⟨h, hl⟩
        cases h with
        | cons _ h => exact Or.inr ⟨h, hl⟩
        | cons_cons _ h => exact Or.inl ⟨_, ⟨h, by simpa using hl⟩, rfl⟩

theorem nodup_combos {α : Type} (n : Nat) (l : List α) (hl : l.Nodup) : (combos n l).Nodup := by
  induction l generalizing n with
  | nil => cases n <;> simp [combos]
  | cons a l ih =>
    cases n with
    | zero => simp [combos]
    | succ n =>
      have ha := (List.nodup_cons.1 hl).1
      have hl' := (List.nodup_cons.1 hl).2
      simp only [combos]
      rw [List.nodup_append]
      refine ⟨(ih n hl').map (fun x y h => by simpa using h), ih _ hl', ?_⟩
      intro x hx y hy hxy
      subst hxy
      obtain ⟨d, _, rfl⟩ := List.mem_map.1 hx
      exact ha (((mem_combos _ _ _).1 hy).1.subset (by simp))

theorem mem_allCombos {α : Type} (l c : List α) :
    c ∈ allCombos l ↔ c.Sublist l ∧ c ≠ [] := by
  simp only [allCombos, List.mem_flatMap, List.mem_range, mem_combos]
  constructor
  · rintro ⟨n, hn, hs, hl⟩
    refine ⟨hs, ?_⟩
    rintro rfl
    simp at hl
  · rintro ⟨hs, hne⟩
    have hp : 0 < c.length := List.length_pos_iff.2 hne
    have := hs.length_le
    exact ⟨c.length - 1, by omega, hs, by omega⟩

theorem length_combos_sum {α : Type} (l : List α) (m : Nat) (hm : l.length ≤ m) :
    ((List.range (m + 1)).map (fun n => (combos n l).length)).sum = 2 ^ l.length := by
  induction l generalizing m with
  | nil =>
    rw [List.range_succ_eq_map]
    simp only [List.map_cons, List.sum_cons, List.map_map, combos, List.length_cons, List.length_nil]
    have : ((List.range m).map ((fun n => (combos n ([] : List α)).length) ∘ Nat.succ)).sum = 0 := by
      have hz : ∀ (q : List Nat),
          (q.map ((fun n => (combos n ([] : List α)).length) ∘ Nat.succ)).sum = 0 := by
        intro q
        induction q with
        | nil => rfl
        | cons x q ih => simp [ih, combos]
      exact hz _
    rw [this]; rfl
  | cons a l ih =>
    simp only [List.length_cons] at hm
    obtain ⟨m, rfl⟩ : ∃ k, m = k + 1 := ⟨m - 1, by omega⟩
    rw [List.range_succ_eq_map]
    simp only [List.map_cons, List.sum_cons, List.map_map]
    have h1 : ((List.range (m + 1)).map ((fun n => (combos n (a :: l)).length) ∘ Nat.succ)).sum =
        ((List.range (m + 1)).map (fun n => (combos n l).length)).sum +
        ((List.range (m + 1)).map ((fun n => (combos n l).length) ∘ Nat.succ)).sum := by
      have hz : ∀ (q : List Nat),
          (q.map ((fun n => (combos n (a :: l)).length) ∘ Nat.succ)).sum =
          (q.map (fun n => (combos n l).length)).sum +
          (q.map ((fun n => (combos n l).length) ∘ Nat.succ)).sum := by
        intro q
        induction q with
        | nil => rfl
        | cons x q ih => simp [ih, combos]; omega
      exact hz _
    have h2 := ih (m + 1) (by omega)
    rw [List.range_succ_eq_map] at h2
    simp only [List.map_cons, List.sum_cons, List.map_map] at h2
    have h3 := ih m (by omega)
    have h4 : (combos 0 (a :: l)).length = (combos 0 l).length := by simp [combos]
    rw [h1, h4, h3, List.length_cons, Nat.pow_succ]
    omega

theorem length_allCombos {α : Type} (l : List α) : (allCombos l).length = 2 ^ l.length - 1 := by
  have h := length_combos_sum l l.length (Nat.le_refl _)
  rw [List.range_succ_eq_map] at h
  simp only [List.map_cons, List.sum_cons, List.map_map] at h
  have h0 : (combos 0 l).length = 1 := by cases l <;> rfl
  rw [h0] at h
  have : (allCombos l).length =
      ((List.range l.length).map ((fun n => (combos n l).length) ∘ Nat.succ)).sum := by
    unfold allCombos
    rw [List.length_flatMap]
    rfl
  omega

theorem nodup_allCombos {α : Type} (l : List α) (hl : l.Nodup) : (allCombos l).Nodup := by
  unfold allCombos
  rw [List.nodup_flatMap]
  refine ⟨fun n _ => nodup_combos _ l hl, ?_⟩
  apply List.Pairwise.imp (R := fun a b => a ≠ b) ?_ List.nodup_range
  intro a b hab c hc hd
  have h1 := ((mem_combos _ _ _).1 hc).2
  have h2 := ((mem_combos _ _ _).1 hd).2
  omega

theorem sorted_allCombos {α : Type} (l : List α) :
    (allCombos l).Pairwise (fun a b => a.length ≤ b.length) := by
  unfold allCombos
  rw [List.pairwise_flatMap]
  refine ⟨fun n _ => ?_, ?_⟩
  · apply List.pairwise_of_forall_mem_list
    intro a ha b hb
    have h1 := ((mem_combos _ _ _).1 ha).2
    have h2 := ((mem_combos _ _ _).1 hb).2
    omega
  · apply List.Pairwise.imp (R := fun a b => a < b) ?_ List.pairwise_lt_range
    intro a b hab c hc d hd
    rw [((mem_combos _ _ _).1 hc).2, ((mem_combos _ _ _).1 hd).2]
    omega

/-! ### available interventions -/

theorem differenceLists_foldl {α : Type} (pool : Group) (l : List (α × Group)) :
    l.foldl (fun a lg => differenceLists a lg.2) pool =
      pool.filter (fun e => l.all (fun lg => !ADC.itemMem lg.2 e)) := by
  induction l generalizing pool with
  | nil => simp
  | cons x l ih =>
    rw [List.foldl_cons, ih]
    unfold differenceLists
    rw [List.filter_filter]
    apply List.filter_congr
    intro e _
    simp [Bool.and_comm]

theorem available_eq (cfg : Cfg) (info : Info) :
    available cfg info = cfg.pool.filter (fun e =>
      info.candInt.all (fun lg => !ADC.itemMem lg.2 e) && !ADC.itemMem info.newInt e) := by
  unfold available
  rw [differenceLists_foldl]
  unfold differenceLists
  rw [List.filter_filter]
  apply List.filter_congr
  intro e _
  rw [Bool.and_comm]

/-! ### built interventions -/

/-- interventions of `g` whose time in `t` is not positive -/
def builtGroup (t : Times) (g : Group) : Group :=
  ((t.zip g).filter (fun p => p.1.2 ≤ 0)).map (·.2)

/-- level-wise built interventions -/
def builtSol (ts : List (Int × Times)) (s : Sol) : Sol :=
  List.zipWith (fun t g => (g.1, builtGroup t.2 g.2)) ts s

theorem popInner_hit (step key : Int) (a b : Sol) (g : Group) (ha : ∀ e ∈ a, e.1 ≠ step)
    (hg : KeysNodup g) (hk : key ∈ g.map (·.1)) :
    popInner step key (a ++ (step, g) :: b) =
      .ok (a ++ (step, g.filter (fun e => e.1 ≠ key)) :: b) := by
  induction a with
  | nil => simp only [List.nil_append, popInner, if_true, popOnly_nodup hg hk]; rfl
  | cons x a ih =>
    obtain ⟨s, gx⟩ := x
    have hx : s ≠ step := ha (s, gx) (by simp)
    simp only [List.cons_append, popInner, hx, if_false]
    rw [ih (fun e he => ha e (by simp [he]))]
    rfl

theorem popInner_fold (step : Int) (ks : List Int) (a b : Sol) (g : Group)
    (ha : ∀ e ∈ a, e.1 ≠ step) (hg : KeysNodup g) (hks : ks.Nodup)
    (hk : ∀ k ∈ ks, k ∈ g.map (·.1)) :
    ks.foldlM (fun c k => popInner step k c) (a ++ (step, g) :: b) =
      .ok (a ++ (step, g.filter (fun e => e.1 ∉ ks)) :: b) := by
  induction ks generalizing g with
  | nil => simp
  | cons k ks ih =>
    rw [List.foldlM_cons, popInner_hit step k a b g ha hg (hk k (by simp)), exc_bind_ok, ih]
    · congr 4
      rw [List.filter_filter]
      apply List.filter_congr
      intro e _
      simp [Bool.and_comm]
    · exact (List.filter_sublist.map _).nodup hg
    · exact (List.nodup_cons.1 hks).2
    · intro k' hk'
      obtain ⟨e, he, hek⟩ := List.mem_map.1 (hk k' (by simp [hk']))
      refine List.mem_map.2 ⟨e, List.mem_filter.2 ⟨he, ?_⟩, hek⟩
      have hn := (List.nodup_cons.1 hks).1
      simp only [ne_eq, decide_not, Bool.not_eq_eq_eq_not, Bool.not_true, decide_eq_false_iff_not]
      rw [hek]
      rintro rfl
      exact hn hk'

theorem filter_eq_builtGroup (t : Times) (g : Group) (h : GroupAligned t g) :
    g.filter (fun e => e.1 ∉ (t.filter (fun kt => kt.2 > 0)).map (·.1)) = builtGroup t g := by
  obtain ⟨hk, hg⟩ := h
  unfold builtGroup
  induction t generalizing g with
  | nil =>
    cases g with
    | nil => rfl
    | cons x g => simp at hk
  | cons y t ih =>
    cases g with
    | nil => simp at hk
    | cons x g =>
      simp only [List.map_cons, List.cons.injEq] at hk
      have hg' : KeysNodup g := (List.nodup_cons.1 hg).2
      have hx : x.1 ∉ g.map (·.1) := (List.nodup_cons.1 hg).1
      have hxt : x.1 ∉ (t.filter (fun kt => kt.2 > 0)).map (·.1) := by
        intro hm
        apply hx
        rw [← hk.2]
        exact (List.filter_sublist.map _).subset hm
      have hrest : g.filter (fun e => e.1 ∉ ((y :: t).filter (fun kt => kt.2 > 0)).map (·.1)) =
          g.filter (fun e => e.1 ∉ (t.filter (fun kt => kt.2 > 0)).map (·.1)) := by
        apply List.filter_congr
        intro e he
        have hne : e.1 ≠ y.1 := by
          intro h
          apply hx
          rw [← hk.1, ← h]
          exact List.mem_map.2 ⟨e, he, rfl⟩
        by_cases hy : y.2 > 0 <;> simp [hy, hne]
      rw [List.filter_cons, hrest, ih g hk.2 hg']
      simp only [List.zip_cons_cons, List.filter_cons]
      by_cases hy : y.2 > 0
      · have h1 : ¬ (y.2 ≤ 0) := by omega
        simp [hy, h1, hk.1]
      · have h1 : y.2 ≤ 0 := by omega
        simp [hy, h1, hxt]

theorem alreadyBuilt_fold (ts : List (Int × Times)) (a s : Sol) (h : SolAligned ts s)
    (hn : KeysNodup (a ++ s)) :
    ts.foldlM (fun c st => ((st.2.filter (fun kt => kt.2 > 0)).map (·.1)).foldlM
      (fun c k => popInner st.1 k c) c) (a ++ s) = .ok (a ++ builtSol ts s) := by
  induction h generalizing a with
  | nil => simp [builtSol]
  | @cons t g ts s htg _ ih =>
    obtain ⟨k, g⟩ := g
    obtain ⟨k', t⟩ := t
    obtain ⟨hkk, hal⟩ := htg
    simp only at hkk
    subst hkk
    have hk : ∀ e ∈ a, e.1 ≠ k' := by
      intro e he hek
      simp only [KeysNodup, List.map_append, List.map_cons, List.nodup_append] at hn
      exact hn.2.2 e.1 (List.mem_map.2 ⟨e, he, rfl⟩) k' (by simp) hek
    rw [List.foldlM_cons]
    rw [popInner_fold k' _ a s g hk hal.2, exc_bind_ok, filter_eq_builtGroup t g hal]
    · have := ih (a ++ [(k', builtGroup t g)]) (by
        simpa [KeysNodup] using hn)
      simpa [builtSol] using this
    · have : (t.map (·.1)).Nodup := by rw [hal.1]; exact hal.2
      exact (List.filter_sublist.map _).nodup this
    · intro q hq
      rw [← hal.1]
      exact (List.filter_sublist.map _).subset hq

theorem alreadyBuilt_eq (info : Info) (h : SolAligned info.candTime info.candInt)
    (hn : KeysNodup info.candInt) :
    alreadyBuilt info = .ok (builtSol info.candTime info.candInt) := by
  have := alreadyBuilt_fold info.candTime [] info.candInt h (by simpa using hn)
  simpa [alreadyBuilt] using this

theorem pickBuilt_fold (g : Group) (hg : KeysNodup g) (t : Times) (g' : Group) (acc : List BinVar)
    (hk : t.map (·.1) = g'.map (·.1)) (hs : ∀ e ∈ g', e ∈ g) :
    t.foldlM (pickBuilt g) acc = .ok (acc ++ (builtGroup t g').map (·.2)) := by
  induction t generalizing g' acc with
  | nil => simp [builtGroup]
  | cons y t ih =>
    cases g' with
    | nil => simp at hk
    | cons x g' =>
      simp only [List.map_cons, List.cons.injEq] at hk
      rw [List.foldlM_cons]
      have hget : listGet? g y.1 = some x.2 := by
        apply listGet?_of_mem hg
        rw [hk.1]; exact hs x (by simp)
      by_cases hy : y.2 ≤ 0
      · have : pickBuilt g acc y = .ok (acc ++ [x.2]) := by
          unfold pickBuilt; rw [if_pos hy, hget]
        rw [this, exc_bind_ok, ih g' _ hk.2 (fun e he => hs e (by simp [he]))]
        simp [builtGroup, hy]
      · have : pickBuilt g acc y = .ok acc := by
          unfold pickBuilt; rw [if_neg hy]
        rw [this, exc_bind_ok, ih g' _ hk.2 (fun e he => hs e (by simp [he]))]
        simp [builtGroup, hy]

theorem constructed_fold (ts : List (Int × Times)) (s : Sol) (acc : List BinVar)
    (h : SolAligned ts s) :
    (ts.zip s).foldlM (fun acc (p : (Int × Times) × (Int × Group)) =>
      p.1.2.foldlM (pickBuilt p.2.2) acc) acc =
      .ok (acc ++ (builtSol ts s).flatMap (fun kg => kg.2.map (·.2))) := by
  induction h generalizing acc with
  | nil => simp [builtSol]
  | @cons t g ts s htg _ ih =>
    rw [List.zip_cons_cons, List.foldlM_cons]
    rw [pickBuilt_fold g.2 htg.2.2 t.2 g.2 acc htg.2.1 (fun e he => he), exc_bind_ok, ih]
    simp [builtSol]

theorem constructedFromCandidate_eq (info : Info) (h : SolAligned info.candTime info.candInt) :
    constructedFromCandidate info =
      .ok ((builtSol info.candTime info.candInt).flatMap (fun kg => kg.2.map (·.2))) := by
  have := constructed_fold info.candTime info.candInt [] h
  simpa [constructedFromCandidate] using this

theorem constructedFromNew_eq (info : Info) :
    constructedFromNew info = (builtGroup info.newTime info.newInt).map (·.2) := by
  simp [constructedFromNew, builtGroup]

theorem ready_eq (info : Info) (h : SolAligned info.candTime info.candInt) :
    ready info = .ok ((builtSol info.candTime info.candInt).flatMap (fun kg => kg.2.map (·.2)) ++
      (builtGroup info.newTime info.newInt).map (·.2)) := by
  unfold ready
  rw [constructedFromCandidate_eq info h, exc_bind_ok, constructedFromNew_eq]
  rfl

/-! ### costs -/

theorem pyGet_nat {α : Type} (l : List α) (i : Nat) (h : i < l.length) :
    pyGet l (i : Int) = .ok l[i] := by
  unfold pyGet
  have h1 : ¬ ((i : Int) < 0) := by omega
  simp [h1, h]

theorem discount_ok (rate : Rat) (h : rate ≠ 100) (d : Int) : ∃ w, discount rate d = .ok w := by
  unfold discount
  have : (1 - rate / 100 : Rat) ≠ 0 := by
    intro h0
    apply h
    have : rate / 100 = 1 := by linarith
    linarith
  simp only [this, false_and, if_false]
  split <;> exact ⟨_, rfl⟩

theorem levelWeight_ok (cfg : Cfg) (hr : cfg.rate ≠ 100) (i : Nat) (hi : i < cfg.years.length) :
    ∃ w, levelWeight cfg i = .ok w := by
  unfold levelWeight
  split
  · exact ⟨_, rfl⟩
  · rw [pyGet_nat _ _ hi, exc_bind_ok]
    have h0 : pyGet cfg.years 0 = .ok (cfg.years[0]'(by omega)) := pyGet_nat _ 0 (by omega)
    rw [h0, exc_bind_ok]
    exact discount_ok _ hr _

theorem investmentCostFrom_ok (cfg : Cfg) (hr : cfg.rate ≠ 100) (s : Sol) (i : Nat) (acc : Rat)
    (h : i + s.length ≤ cfg.years.length) : ∃ c, investmentCostFrom cfg i s acc = .ok c := by
  induction s generalizing i acc with
  | nil => exact ⟨_, rfl⟩
  | cons x s ih =>
    simp only [List.length_cons] at h
    obtain ⟨w, hw⟩ := levelWeight_ok cfg hr i (by omega)
    unfold investmentCostFrom
    simp only [hw, exc_bind_ok]
    exact ih _ _ (by omega)

theorem investmentCost_ok (cfg : Cfg) (hr : cfg.rate ≠ 100) (s : Sol)
    (h : s.length ≤ cfg.years.length) : ∃ c, investmentCost cfg s = .ok c :=
  investmentCostFrom_ok cfg hr s 0 0 (by omega)

theorem operationCostFrom_ok (cfg : Cfg) (hr : cfg.rate ≠ 100) (s : List (Int × Rat)) (i : Nat)
    (acc : Rat) (h : i + s.length ≤ cfg.years.length) :
    ∃ c, operationCostFrom cfg i s acc = .ok c := by
  induction s generalizing i acc with
  | nil => exact ⟨_, rfl⟩
  | cons x s ih =>
    simp only [List.length_cons] at h
    unfold operationCostFrom
    split
    · exact ih _ _ (by omega)
    · obtain ⟨w, hw⟩ := levelWeight_ok cfg hr i (by omega)
      simp only [hw, exc_bind_ok]
      exact ih _ _ (by omega)

theorem operationCost_ok (cfg : Cfg) (hr : cfg.rate ≠ 100) (s : List (Int × Rat))
    (h : s.length ≤ cfg.years.length) : ∃ c, operationCost cfg s = .ok c :=
  operationCostFrom_ok cfg hr s 0 0 (by omega)

end Pyensys
