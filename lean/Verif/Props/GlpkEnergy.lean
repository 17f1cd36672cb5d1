import Verif.Lemmas.Glpk
import Verif.Props.Energy
import Verif.Props.Multipliers
import Verif.Props.ScreeningLP

/-!
# C148: the energy balance that is written for GLPK
-/

namespace Pyensys

/-- row of the balance of node `n`, from the tree -/
def tbRow (t : EnTree) (v n : Nat) : GRow :=
  ⟨n - 1, [(((.part, [v]), n), 1), (gState v (t.before.getD n ⟨(0, 0), (0, 0)⟩).fwd, -1), (((.inp, [v]), n), -1),
    (((.outp, [v]), n), 1)], .fixed 0⟩

/-- row of the end of node `n`, from the tree -/
def taRow (d : GeData) (t : EnTree) (v n : Nat) : GRow :=
  ⟨n - 1, [(((.tot, [v]), n), 1), (gState v (t.before.getD n ⟨(0, 0), (0, 0)⟩).back, -(d.wght n))] ++
    (if 1 - d.wght n ≠ 0 then [(gState v (t.before.getD n ⟨(0, 0), (0, 0)⟩).fwd, -(1 - d.wght n))] else []), .fixed 0⟩

def tbGroup (d : GeData) (t : EnTree) (v : Nat) : GRows := ⟨(.tb, [v]), d.nodes - 1, (List.range' 1 (d.nodes - 1)).map (tbRow t v)⟩

def taGroup (d : GeData) (t : EnTree) (v : Nat) : GRows := ⟨(.ta, [v]), d.nodes - 1, (List.range' 1 (d.nodes - 1)).map (taRow d t v)⟩

/-- the tree has no uncertain node, and the linked lists are those of the tree -/
structure GeTree (d : GeData) (t : EnTree) : Prop where
  shape : EnShape t d.nodes
  ll1 : d.links.ll1 = (t.before.map (·.fwd)).set 0 (0, 0)
  ll2 : d.links.ll2 = (0, (0, 0)) :: (List.range' 1 (d.nodes - 1)).map (aggRow t)
  marks : ∀ x, x < d.nodes → t.uncertainty[x]? = some 0

theorem geTree_before {d : GeData} {t : EnTree} (h : GeTree d t) {n : Nat} (hn : n < d.nodes) :
    t.before[n]? = some (t.before.getD n ⟨(0, 0), (0, 0)⟩) := by
  rw [List.getD_eq_getElem?_getD, List.getElem?_eq_getElem (by rw [h.shape.lens.1]; exact hn)]
  rfl

theorem geTree_ll1 {d : GeData} {t : EnTree} (h : GeTree d t) {n : Nat} (h1 : 1 ≤ n) (hn : n < d.nodes) :
    d.links.ll1[n]? = some (t.before.getD n ⟨(0, 0), (0, 0)⟩).fwd := by
  rw [h.ll1]
  exact before_fwd h1 (geTree_before h hn)

theorem geTree_ll2 {d : GeData} {t : EnTree} (h : GeTree d t) {n : Nat} (h1 : 1 ≤ n) (hn : n < d.nodes) :
    d.links.ll2[n]? = some (aggRow t n) := by
  rw [h.ll2]
  obtain ⟨m, rfl⟩ : ∃ m, n = m + 1 := ⟨n - 1, by omega⟩
  rw [List.getElem?_cons_succ, List.getElem?_map, List.getElem?_range' (by omega)]
  simp [Nat.add_comm]

theorem geRows_spec {d : GeData} {t : EnTree} (h : GeTree d t) :
    geRows d = .ok ((List.range d.vectors).map (tbGroup d t) ++ (List.range d.vectors).map (taGroup d t)) := by
  have hb : ∀ v, (List.range' 1 (d.nodes - 1)).mapM (geBalance d v) = .ok ((List.range' 1 (d.nodes - 1)).map (tbRow t v)) := by
    intro v
    apply mapM_all
    intro n hn
    obtain ⟨h1, h2⟩ := mem_inner.1 hn
    unfold geBalance
    rw [npGet_some (geTree_ll1 h h1 h2)]
    rfl
  have ha : ∀ v, (List.range' 1 (d.nodes - 1)).mapM (geAggregation d v) = .ok ((List.range' 1 (d.nodes - 1)).map (taRow d t v)) := by
    intro v
    apply mapM_all
    intro n hn
    obtain ⟨h1, h2⟩ := mem_inner.1 hn
    unfold geAggregation
    rw [npGet_some (geTree_ll2 h h1 h2)]
    simp only [bind, Except.bind, aggRow]
    rw [npGet_some (geTree_ll1 h h1 h2)]
    rfl
  unfold geRows
  rw [mapM_all _ (tbGroup d t) _ (by intro v _; rw [hb v]; rfl)]
  simp only [bind, Except.bind]
  rw [mapM_all _ (taGroup d t) _ (by intro v _; simp only [ha v]; rfl)]

/-- states of charge of tree `v`, read by name: partial storage at the start, total storage at the end -/
def gSoc (p : GProb) (x : Nat → Rat) (v n e : Nat) : Rat := p.val x (if e = 0 then .part else .tot, [v]) n

theorem gState_val (p : GProb) (x : Nat → Rat) (v : Nat) (s : EnState) :
    p.val x (gState v s).1 (gState v s).2 = gSoc p x v s.1 s.2 := rfl

/-- what the rows of a tree say, in any program that has the rows -/
theorem tbRow_val (p : GProb) (x : Nat → Rat) (t : EnTree) (v n : Nat) : (tbRow t v n).bnd.holds (p.rowVal x (tbRow t v n)) ↔
    gSoc p x v n 0 = gSoc p x v (t.before.getD n ⟨(0, 0), (0, 0)⟩).fwd.1 (t.before.getD n ⟨(0, 0), (0, 0)⟩).fwd.2 +
      p.val x (.inp, [v]) n - p.val x (.outp, [v]) n := by
  simp only [GProb.rowVal, tbRow, GBnd.holds, List.map_cons, List.map_nil, List.sum_cons, List.sum_nil, gState_val]
  have : p.val x (.part, [v]) n = gSoc p x v n 0 := rfl
  rw [this]
  constructor <;> intro h <;> linarith

theorem taRow_val (p : GProb) (x : Nat → Rat) (d : GeData) (t : EnTree) (v n : Nat) :
    (taRow d t v n).bnd.holds (p.rowVal x (taRow d t v n)) ↔
    gSoc p x v n 1 = gSoc p x v (t.before.getD n ⟨(0, 0), (0, 0)⟩).back.1 (t.before.getD n ⟨(0, 0), (0, 0)⟩).back.2 * d.wght n +
      gSoc p x v (t.before.getD n ⟨(0, 0), (0, 0)⟩).fwd.1 (t.before.getD n ⟨(0, 0), (0, 0)⟩).fwd.2 * (1 - d.wght n) := by
  have h1 : p.val x (.tot, [v]) n = gSoc p x v n 1 := rfl
  simp only [GProb.rowVal, taRow, GBnd.holds]
  by_cases hw : 1 - d.wght n ≠ 0
  · rw [if_pos hw]
    simp only [List.cons_append, List.nil_append, List.map_cons, List.map_nil, List.sum_cons, List.sum_nil, gState_val, h1]
    constructor <;> intro h <;> linarith
  · rw [if_neg hw]
    rw [not_not] at hw
    simp only [List.append_nil, List.map_cons, List.map_nil, List.sum_cons, List.sum_nil, gState_val, h1, hw]
    constructor <;> intro h <;> linarith

/-- the columns of the trees -/
theorem geCols_mem {d : GeData} {rel : List Nat} {v : Nat} (hv : v < d.vectors) :
    (((.part, [v]) : GKey), (List.range d.nodes).map (fun n => if n = 0 then GBnd.fixed 0 else .lower 0)) ∈ geCols d rel ∧
    (((.tot, [v]) : GKey), (List.range d.nodes).map (fun n => if n = 0 then GBnd.fixed 0 else .lower 0)) ∈ geCols d rel ∧
    (((.inp, [v]) : GKey), (List.range d.nodes).map (fun n => GBnd.fixed (d.win v n))) ∈ geCols d rel ∧
    (((.outp, [v]) : GKey), (List.range d.nodes).map (fun n => if n ∈ rel then GBnd.lower 0 else .fixed (d.wout v n))) ∈ geCols d rel := by
  unfold geCols
  simp only [List.mem_append, List.mem_map, List.mem_range]
  exact ⟨.inl (.inl (.inl ⟨v, hv, rfl⟩)), .inl (.inl (.inr ⟨v, hv, rfl⟩)), .inl (.inr ⟨v, hv, rfl⟩), .inr ⟨v, hv, rfl⟩⟩

theorem geCols_from {d : GeData} {rel : List Nat} {g : GKey × List GBnd} (hg : g ∈ geCols d rel) : ∃ v, v < d.vectors ∧
    (g = (((.part, [v]) : GKey), (List.range d.nodes).map (fun n => if n = 0 then GBnd.fixed 0 else .lower 0)) ∨
     g = (((.tot, [v]) : GKey), (List.range d.nodes).map (fun n => if n = 0 then GBnd.fixed 0 else .lower 0)) ∨
     g = (((.inp, [v]) : GKey), (List.range d.nodes).map (fun n => GBnd.fixed (d.win v n))) ∨
     g = (((.outp, [v]) : GKey), (List.range d.nodes).map (fun n => if n ∈ rel then GBnd.lower 0 else .fixed (d.wout v n)))) := by
  unfold geCols at hg
  simp only [List.mem_append, List.mem_map, List.mem_range] at hg
  rcases hg with ((⟨v, hv, rfl⟩ | ⟨v, hv, rfl⟩) | ⟨v, hv, rfl⟩) | ⟨v, hv, rfl⟩
  · exact ⟨v, hv, .inl rfl⟩
  · exact ⟨v, hv, .inr (.inl rfl)⟩
  · exact ⟨v, hv, .inr (.inr (.inl rfl))⟩
  · exact ⟨v, hv, .inr (.inr (.inr rfl))⟩

theorem range_bound {α : Type} {f : Nat → α} {n off : Nat} {b : α} : ((List.range n).map f)[off]? = some b ↔ off < n ∧ b = f off := by
  rw [List.getElem?_map, Option.map_eq_some_iff]
  constructor
  · rintro ⟨a, h1, h2⟩
    obtain ⟨h3, h4⟩ := List.getElem?_eq_some_iff.1 h1
    rw [List.length_range] at h3
    rw [List.getElem_range] at h4
    subst h4
    exact ⟨h3, h2.symm⟩
  · rintro ⟨h1, rfl⟩
    exact ⟨off, by rw [List.getElem?_range h1], rfl⟩

/-- what a program with the columns and rows of the trees says about them -/
def GeSays (d : GeData) (t : EnTree) (rel : List Nat) (p : GProb) (x : Nat → Rat) : Prop :=
  ∀ v, v < d.vectors → EnRules t d.nodes d.wght (fun n => p.val x (.inp, [v]) n - p.val x (.outp, [v]) n) (gSoc p x v) ∧
    (∀ n, n < d.nodes → 0 ≤ gSoc p x v n 0 ∧ 0 ≤ gSoc p x v n 1) ∧
    (∀ n, n < d.nodes → p.val x (.inp, [v]) n = d.win v n) ∧
    (∀ n, n < d.nodes → (n ∈ rel → 0 ≤ p.val x (.outp, [v]) n) ∧ (n ∉ rel → p.val x (.outp, [v]) n = d.wout v n))

theorem geNamed {d : GeData} {t : EnTree} (h : GeTree d t) (rel : List Nat) (p : GProb) (x : Nat → Rat) :
    ((∀ g ∈ geCols d rel, ∀ (off : Nat) (b : GBnd), g.2[off]? = some b → b.holds (p.val x g.1 off)) ∧
     (∀ g ∈ (List.range d.vectors).map (tbGroup d t) ++ (List.range d.vectors).map (taGroup d t), ∀ r ∈ g.rows,
       r.bnd.holds (p.rowVal x r))) ↔ GeSays d t rel p x := by
  constructor
  · rintro ⟨hc, hr⟩ v hv
    obtain ⟨m1, m2, m3, m4⟩ := geCols_mem (rel := rel) hv
    have z0 : gSoc p x v 0 0 = 0 := hc _ m1 0 (.fixed 0) (range_bound.2 ⟨h.shape.pos, by simp⟩)
    have z1 : gSoc p x v 0 1 = 0 := hc _ m2 0 (.fixed 0) (range_bound.2 ⟨h.shape.pos, by simp⟩)
    have htb : ∀ n, 1 ≤ n → n < d.nodes → _ := fun n h1 h2 =>
      (tbRow_val p x t v n).1 (hr (tbGroup d t v) (by simp only [List.mem_append, List.mem_map, List.mem_range]; exact .inl ⟨v, hv, rfl⟩) _
        (List.mem_map.2 ⟨n, mem_inner.2 ⟨h1, h2⟩, rfl⟩))
    have hta : ∀ n, 1 ≤ n → n < d.nodes → _ := fun n h1 h2 =>
      (taRow_val p x d t v n).1 (hr (taGroup d t v) (by simp only [List.mem_append, List.mem_map, List.mem_range]; exact .inr ⟨v, hv, rfl⟩) _
        (List.mem_map.2 ⟨n, mem_inner.2 ⟨h1, h2⟩, rfl⟩))
    refine ⟨⟨⟨z0, z1⟩, ?_, ?_, ?_⟩, ?_, ?_, ?_⟩
    · intro n b h1 h2 hb
      have := htb n h1 h2
      have e := geTree_before h h2
      rw [hb, Option.some.injEq] at e
      rw [← e] at this
      rw [this]
      ring
    · intro n b h1 h2 _ hb
      have := hta n h1 h2
      have e := geTree_before h h2
      rw [hb, Option.some.injEq] at e
      rw [← e] at this
      exact this
    · intro n b r h1 h2 hu
      rw [h.marks n h2] at hu
      simp at hu
    · intro n hn
      by_cases h0 : n = 0
      · subst h0
        rw [z0, z1]
        simp
      · have a1 := hc _ m1 n (.lower 0) (range_bound.2 ⟨hn, by simp [h0]⟩)
        have a2 := hc _ m2 n (.lower 0) (range_bound.2 ⟨hn, by simp [h0]⟩)
        exact ⟨a1, a2⟩
    · intro n hn
      exact hc _ m3 n (.fixed (d.win v n)) (range_bound.2 ⟨hn, rfl⟩)
    · intro n hn
      refine ⟨fun hm => hc _ m4 n (.lower 0) (range_bound.2 ⟨hn, by simp [hm]⟩), fun hm => ?_⟩
      exact hc _ m4 n (.fixed (d.wout v n)) (range_bound.2 ⟨hn, by simp [hm]⟩)
  · intro hs
    constructor
    · intro g hg off b hb
      obtain ⟨v, hv, hcase⟩ := geCols_from hg
      obtain ⟨s1, s2, s3, s4⟩ := hs v hv
      rcases hcase with rfl | rfl | rfl | rfl
      · obtain ⟨ho, rfl⟩ := range_bound.1 hb
        by_cases h0 : off = 0
        · subst h0; simp only [if_true]; exact s1.root.1
        · simp only [h0, if_false]; exact (s2 off ho).1
      · obtain ⟨ho, rfl⟩ := range_bound.1 hb
        by_cases h0 : off = 0
        · subst h0; simp only [if_true]; exact s1.root.2
        · simp only [h0, if_false]; exact (s2 off ho).2
      · obtain ⟨ho, rfl⟩ := range_bound.1 hb
        exact s3 off ho
      · obtain ⟨ho, rfl⟩ := range_bound.1 hb
        by_cases hm : off ∈ rel
        · simp only [hm, if_true]; exact (s4 off ho).1 hm
        · simp only [hm, if_false]; exact (s4 off ho).2 hm
    · intro g hg r hr
      simp only [List.mem_append, List.mem_map, List.mem_range] at hg
      rcases hg with ⟨v, hv, rfl⟩ | ⟨v, hv, rfl⟩
      · obtain ⟨n, hn, rfl⟩ := List.mem_map.1 hr
        obtain ⟨h1, h2⟩ := mem_inner.1 hn
        rw [tbRow_val, (hs v hv).1.balance n _ h1 h2 (geTree_before h h2)]
        ring
      · obtain ⟨n, hn, rfl⟩ := List.mem_map.1 hr
        obtain ⟨h1, h2⟩ := mem_inner.1 hn
        rw [taRow_val]
        exact (hs v hv).1.aggregate n _ h1 h2 (h.marks n h2) (geTree_before h h2)

/-! ## the wrapper accepts it -/

theorem geCols_keys (d : GeData) (rel : List Nat) : ((geCols d rel).map (·.1)).Nodup := by
  unfold geCols
  simp only [List.map_append, List.map_map]
  have inj : ∀ tag : GTag, (List.map (fun v => ((tag, [v]) : GKey)) (List.range d.vectors)).Nodup := by
    intro tag
    refine List.nodup_range.map ?_
    intro a b h
    simpa using h
  rw [List.nodup_append, List.nodup_append, List.nodup_append]
  refine ⟨⟨⟨inj .part, inj .tot, ?_⟩, inj .inp, ?_⟩, inj .outp, ?_⟩
  all_goals
    intro a ha b hb hab
    simp only [List.mem_append, List.mem_map, List.mem_range, Function.comp_apply] at ha hb
    subst hab
    simp only [Prod.ext_iff] at ha hb
    rcases a with ⟨a1, a2⟩
    simp only at ha hb
  · obtain ⟨_, _, h1, _⟩ := ha
    obtain ⟨_, _, h2, _⟩ := hb
    rw [← h1] at h2
    simp at h2
  · obtain ⟨_, _, h2, _⟩ := hb
    rcases ha with ⟨_, _, h1, _⟩ | ⟨_, _, h1, _⟩ <;> rw [← h1] at h2 <;> simp at h2
  · obtain ⟨_, _, h2, _⟩ := hb
    rcases ha with (⟨_, _, h1, _⟩ | ⟨_, _, h1, _⟩) | ⟨_, _, h1, _⟩ <;> rw [← h1] at h2 <;> simp at h2

/-- tags of the columns of the trees -/
theorem geCols_tag {d : GeData} {rel : List Nat} {g : GKey × List GBnd} (hg : g ∈ geCols d rel) :
    g.1.1 = .part ∨ g.1.1 = .tot ∨ g.1.1 = .inp ∨ g.1.1 = .outp := by
  obtain ⟨v, _, rfl | rfl | rfl | rfl⟩ := geCols_from hg <;> simp

theorem geTree_states {d : GeData} {t : EnTree} (h : GeTree d t) {n : Nat} (h1 : 1 ≤ n) (hn : n < d.nodes) :
    (t.before.getD n ⟨(0, 0), (0, 0)⟩).fwd.1 < n ∧ ((t.before.getD n ⟨(0, 0), (0, 0)⟩).fwd.2 = 0 ∨ (t.before.getD n ⟨(0, 0), (0, 0)⟩).fwd.2 = 1) ∧
    ((t.before.getD n ⟨(0, 0), (0, 0)⟩).back = (n, 0) ∨ ∃ m, n < m ∧ m < d.nodes ∧ (t.before.getD n ⟨(0, 0), (0, 0)⟩).back = (m, 1)) := by
  obtain ⟨b, hb, h2, h3, a, ha, h4⟩ := start_of h.shape h1 hn
  have e := geTree_before h hn
  rw [hb, Option.some.injEq] at e
  rw [← e]
  refine ⟨h2, h3, ?_⟩
  rcases h.shape.children n a ha with rfl | ⟨c1, c2, c3⟩
  · rw [if_pos rfl] at h4; exact .inl h4
  · rw [if_neg (by rintro rfl; simp at c1)] at h4
    exact .inr ⟨a.2, by omega, c3, h4⟩

theorem geHas {d : GeData} {rel : List Nat} {p : GProb} (hp : ∀ g ∈ geCols d rel, g ∈ p.cols) {v n : Nat} (hv : v < d.vectors) (hn : n < d.nodes) :
    (∀ e, p.has (gState v (n, e))) ∧ p.has ((.part, [v]), n) ∧ p.has ((.tot, [v]), n) ∧ p.has ((.inp, [v]), n) ∧ p.has ((.outp, [v]), n) := by
  obtain ⟨m1, m2, m3, m4⟩ := geCols_mem (rel := rel) hv
  have k1 : p.has ((.part, [v]), n) := ⟨_, hp _ m1, by simpa using hn⟩
  have k2 : p.has ((.tot, [v]), n) := ⟨_, hp _ m2, by simpa using hn⟩
  have k3 : p.has ((.inp, [v]), n) := ⟨_, hp _ m3, by simpa using hn⟩
  have k4 : p.has ((.outp, [v]), n) := ⟨_, hp _ m4, by simpa using hn⟩
  refine ⟨fun e => ?_, k1, k2, k3, k4⟩
  unfold gState
  by_cases he : e = 0
  · simp only [he, if_true]; exact k1
  · simp only [he, if_false]; exact k2

theorem gState_eq {v : Nat} {s s' : EnState} (h : gState v s = gState v s') : s.1 = s'.1 ∧ (s.2 = 0 ↔ s'.2 = 0) := by
  unfold gState at h
  simp only [Prod.mk.injEq, and_true] at h
  refine ⟨h.2, ?_⟩
  by_cases a : s.2 = 0 <;> by_cases b : s'.2 = 0 <;> simp [a, b] at h ⊢

theorem geRows_good {d : GeData} {t : EnTree} (h : GeTree d t) {rel : List Nat} {p : GProb} (hp : ∀ g ∈ geCols d rel, g ∈ p.cols) :
    ∀ g ∈ (List.range d.vectors).map (tbGroup d t) ++ (List.range d.vectors).map (taGroup d t),
      ((∀ r ∈ g.rows, r.off < g.size) ∧ (g.rows.map (·.off)).Nodup) ∧
      ∀ r ∈ g.rows, (r.terms.map (·.1)).Nodup ∧ ∀ u ∈ r.terms, p.has u.1 := by
  have hoff : (List.map (fun n => n - 1) (List.range' 1 (d.nodes - 1))).Nodup := by
    rw [show (List.range' 1 (d.nodes - 1)).map (fun n => n - 1) = List.range (d.nodes - 1) from by
      rw [List.range_eq_range', List.map_sub_range' (by omega)]]
    exact List.nodup_range
  intro g hg
  simp only [List.mem_append, List.mem_map, List.mem_range] at hg
  rcases hg with ⟨v, hv, rfl⟩ | ⟨v, hv, rfl⟩
  · refine ⟨⟨?_, ?_⟩, ?_⟩
    · intro r hr
      obtain ⟨n, hn, rfl⟩ := List.mem_map.1 hr
      obtain ⟨h1, h2⟩ := mem_inner.1 hn
      simp only [tbRow, tbGroup]
      omega
    · simp only [tbGroup, List.map_map]
      exact hoff
    · intro r hr
      obtain ⟨n, hn, rfl⟩ := List.mem_map.1 hr
      obtain ⟨h1, h2⟩ := mem_inner.1 hn
      obtain ⟨s1, s2, s3⟩ := geTree_states h h1 h2
      obtain ⟨k0, k1, k2, k3, k4⟩ := geHas hp hv h2
      have kf := (geHas hp hv (show (t.before.getD n ⟨(0, 0), (0, 0)⟩).fwd.1 < d.nodes by omega)).1
        (t.before.getD n ⟨(0, 0), (0, 0)⟩).fwd.2
      refine ⟨?_, ?_⟩
      · have g1 : ∀ s : EnState, gState v s ≠ ((.inp, [v]), n) ∧ gState v s ≠ ((.outp, [v]), n) := by
          intro s
          unfold gState
          split <;> simp
        have g2 : ((GTag.part, [v]), n) ≠ gState v (t.before.getD n ⟨(0, 0), (0, 0)⟩).fwd := by
          intro e
          have := congrArg Prod.snd e
          simp only [gState] at this
          omega
        simp only [tbRow, List.map_cons, List.map_nil, List.nodup_cons, List.mem_cons, List.not_mem_nil, or_false, not_or]
        exact ⟨⟨g2, by simp, by simp⟩, g1 _, by simp, not_false, List.nodup_nil⟩
      · intro u hu
        simp only [tbRow, List.mem_cons, List.not_mem_nil, or_false] at hu
        rcases hu with rfl | rfl | rfl | rfl
        · exact k1
        · exact kf
        · exact k3
        · exact k4
  · refine ⟨⟨?_, ?_⟩, ?_⟩
    · intro r hr
      obtain ⟨n, hn, rfl⟩ := List.mem_map.1 hr
      obtain ⟨h1, h2⟩ := mem_inner.1 hn
      simp only [taRow, taGroup]
      omega
    · simp only [taGroup, List.map_map]
      exact hoff
    · intro r hr
      obtain ⟨n, hn, rfl⟩ := List.mem_map.1 hr
      obtain ⟨h1, h2⟩ := mem_inner.1 hn
      obtain ⟨s1, s2, s3⟩ := geTree_states h h1 h2
      obtain ⟨k0, k1, k2, k3, k4⟩ := geHas hp hv h2
      have kf := (geHas hp hv (show (t.before.getD n ⟨(0, 0), (0, 0)⟩).fwd.1 < d.nodes by omega)).1
        (t.before.getD n ⟨(0, 0), (0, 0)⟩).fwd.2
      have kb : p.has (gState v (t.before.getD n ⟨(0, 0), (0, 0)⟩).back) := by
        rcases s3 with e | ⟨m, _, hm, e⟩ <;> rw [e]
        · exact k0 0
        · exact (geHas hp hv hm).1 1
      have nb : ((GTag.tot, [v]), n) ≠ gState v (t.before.getD n ⟨(0, 0), (0, 0)⟩).back := by
        rcases s3 with e | ⟨m, hm, _, e⟩ <;> rw [e] <;> simp [gState] <;> omega
      have nf : ((GTag.tot, [v]), n) ≠ gState v (t.before.getD n ⟨(0, 0), (0, 0)⟩).fwd := by
        simp only [gState, ne_eq, Prod.mk.injEq, not_and]
        intro _; omega
      have nbf : gState v (t.before.getD n ⟨(0, 0), (0, 0)⟩).back ≠ gState v (t.before.getD n ⟨(0, 0), (0, 0)⟩).fwd := by
        intro e
        have := (gState_eq e).1
        rcases s3 with e' | ⟨m, hm, _, e'⟩ <;> rw [e'] at this <;> simp only at this <;> omega
      refine ⟨?_, ?_⟩
      · simp only [taRow]
        split
        · simp only [List.cons_append, List.nil_append, List.map_cons, List.map_nil, List.nodup_cons, List.mem_cons,
            List.not_mem_nil, or_false, not_or]
          exact ⟨⟨nb, nf⟩, nbf, not_false, List.nodup_nil⟩
        · simp only [List.append_nil, List.map_cons, List.map_nil, List.nodup_cons, List.mem_cons, List.not_mem_nil, or_false]
          exact ⟨nb, not_false, List.nodup_nil⟩
      · intro u hu
        simp only [taRow, List.mem_append, List.mem_cons, List.not_mem_nil, or_false] at hu
        rcases hu with (rfl | rfl) | hu
        · exact k2
        · exact kb
        · split at hu
          · simp only [List.mem_cons, List.not_mem_nil, or_false] at hu
            subst hu
            exact kf
          · simp at hu

/-! ## C148 -/

theorem geTree_of {data : List EnPeriod} {fix : Option Nat} {size : EnSize} {t : EnTree} {w : EnWeights} {links : EnLinks}
    (h : enInitialise data fix = .ok (size, t, w, links)) (hpos : ∀ d ∈ data, 0 < d.names) (hunc : ∀ d ∈ data, d.unc = false) :
    GeTree (geData size w links) t ∧ t.uncertainty.sum = 0 ∧ 1 < size.nodes := by
  obtain ⟨hs, h0, hl⟩ := enInitialise_shape h hpos (fun d hd => hunc d (List.mem_of_getElem? hd))
  obtain ⟨hne, ⟨v, hv⟩, h2, _⟩ := enInitialise_parts h
  have hsum : t.uncertainty.sum = 0 := by
    subst hv
    refine no_flag_no_mark _ v _ (by simpa using hne) (by simp) t h2 ?_
    simp only [List.any_eq_false, List.mem_map]
    rintro b ⟨d, hd, rfl⟩
    simp [hunc d hd]
  have hm : ∀ x, x < size.nodes → t.uncertainty[x]? = some 0 := by
    intro x hx
    have hlt : x < t.uncertainty.length := by rw [hs.lens.2.2]; exact hx
    rw [List.getElem?_eq_getElem hlt, Option.some.injEq]
    exact List.sum_eq_zero_iff.1 hsum _ (List.getElem_mem hlt)
  refine ⟨⟨hs, by rw [geData, hl], ?_, hm⟩, hsum, ?_⟩
  · rw [geData, hl]
    simp only
    congr 2
    rw [List.filter_eq_self]
    intro x hx
    have := hm x (mem_inner.1 hx).2
    rw [mark_some hs (mem_inner.1 hx).2, Option.some.injEq] at this
    simp [this]
  · obtain ⟨d, ds, rfl⟩ := List.exists_cons_of_ne_nil hne
    have hd := hpos d (by simp)
    obtain ⟨t', e, t2⟩ := connect_spec ((d :: ds).map (·.names)) v ((d :: ds).map (·.unc)) (by simp) (by simp)
    rw [← hv, h2, Except.ok.injEq] at e
    subst e
    have ha : t.after[0]? = some (1, d.names) := by
      have := t2.after 0 0 (by simp) (by simp [levelSize])
      rw [show nodeId ((d :: ds).map (·.names)) 0 0 = 0 from rfl] at this
      rw [this]
      simp [childRange, nodeId, levelStart, levelSize, enLen]
    have := hs.children 0 _ ha
    simp only [Prod.mk.injEq, Nat.one_ne_zero, false_and, false_or] at this
    omega

theorem geProb_eq {d : GeData} {t : EnTree} (h : GeTree d t) : geProb d = .ok ⟨geCols d [],
    (List.range d.vectors).map (tbGroup d t) ++ (List.range d.vectors).map (taGroup d t), [(((.part, [0]), 1), 1)]⟩ := by
  unfold geProb
  rw [geRows_spec h]
  rfl

theorem geProb_good {d : GeData} {t : EnTree} (h : GeTree d t) (hv : 0 < d.vectors) (hn : 1 < d.nodes) : GGood ⟨geCols d [],
    (List.range d.vectors).map (tbGroup d t) ++ (List.range d.vectors).map (taGroup d t), [(((.part, [0]), 1), 1)]⟩ := by
  have hrow := geRows_good h (rel := []) (p := ⟨geCols d [],
    (List.range d.vectors).map (tbGroup d t) ++ (List.range d.vectors).map (taGroup d t), [(((.part, [0]), 1), 1)]⟩) (fun g hg => hg)
  refine ⟨geCols_keys d [], ?_, ?_, ?_, fun g hg => (hrow g hg).1, fun g hg => (hrow g hg).2, ?_⟩
  · intro g hg
    have hr : List.range d.nodes ≠ [] := by rw [Ne, List.range_eq_nil]; omega
    obtain ⟨v, _, rfl | rfl | rfl | rfl⟩ := geCols_from hg <;> simpa using hr
  · simp only [List.map_append, List.map_map]
    have inj : ∀ tag : GTag, (List.map (fun v => ((tag, [v]) : GKey)) (List.range d.vectors)).Nodup := by
      intro tag
      refine List.nodup_range.map ?_
      intro a b h
      simpa using h
    rw [List.nodup_append]
    refine ⟨inj .tb, inj .ta, ?_⟩
    intro a ha b hb hab
    simp only [List.mem_map, List.mem_range, Function.comp_apply, tbGroup, taGroup] at ha hb
    obtain ⟨_, _, h1⟩ := ha
    obtain ⟨_, _, h2⟩ := hb
    rw [← h1, ← h2] at hab
    simp at hab
  · intro g hg
    simp only [List.mem_append, List.mem_map, List.mem_range] at hg
    rcases hg with ⟨v, _, rfl⟩ | ⟨v, _, rfl⟩ <;> simp only [tbGroup, taGroup] <;> omega
  · intro u hu
    simp only [List.mem_cons, List.not_mem_nil, or_false] at hu
    subst hu
    exact (geHas (fun g hg => hg) hv hn).2.1

/-- **C148.** Without uncertainty, the energy balance that is written for GLPK is accepted for every tree, weights, inputs
and outputs (and at least one vector): no group is added twice, no coefficient is written twice or outside. -/
theorem C148_runs_partial {data : List EnPeriod} {fix : Option Nat} {size : EnSize} {t : EnTree} {w : EnWeights} {links : EnLinks}
    (h : enInitialise data fix = .ok (size, t, w, links)) (hpos : ∀ d ∈ data, 0 < d.names) (hunc : ∀ d ∈ data, d.unc = false)
    (hv : 0 < size.vectors) : ∃ p lp, geRun (geData size w links) = .ok (p, lp) := by
  obtain ⟨ht, _, hn⟩ := geTree_of h hpos hunc
  have hg := geProb_good ht hv hn
  obtain ⟨lp, hlp⟩ := gBuild_ok hg
  refine ⟨(⟨geCols (geData size w links) [], (List.range (geData size w links).vectors).map (tbGroup (geData size w links) t) ++
    (List.range (geData size w links).vectors).map (taGroup (geData size w links) t), [(((.part, [0]), 1), 1)]⟩ : GProb), lp, ?_⟩
  unfold geRun
  rw [geProb_eq ht]
  simp only [bind, Except.bind]
  rw [hlp]
  simp only
  rw [gSimplex_ok hlp]
  · intro g hg b hb
    obtain ⟨v, _, hc⟩ := geCols_from hg
    rcases hc with rfl | rfl | rfl | rfl <;> simp only [List.mem_map] at hb <;> obtain ⟨n, _, rfl⟩ := hb
    · split <;> rfl
    · split <;> rfl
    · rfl
    · split <;> rfl
  · intro g hg r hr
    simp only [List.mem_append, List.mem_map, List.mem_range] at hg
    rcases hg with ⟨v, _, rfl⟩ | ⟨v, _, rfl⟩ <;> obtain ⟨n, _, rfl⟩ := List.mem_map.1 hr <;> rfl

theorem geRun_parts {d : GeData} {t : EnTree} (h : GeTree d t) {p : GProb} {lp : GLp} (hr : geRun d = .ok (p, lp)) :
    p = ⟨geCols d [], (List.range d.vectors).map (tbGroup d t) ++ (List.range d.vectors).map (taGroup d t), [(((.part, [0]), 1), 1)]⟩ ∧
    gBuild p = .ok lp := by
  unfold geRun at hr
  simp only [except_bind_ok] at hr
  obtain ⟨p', h1, lp', h2, _, _, h4⟩ := hr
  simp only [Except.ok.injEq, Prod.mk.injEq] at h4
  obtain ⟨rfl, rfl⟩ := h4
  rw [geProb_eq h, Except.ok.injEq] at h1
  exact ⟨h1.symm, h2⟩

/-- the values that the program gives to the states, read by name: partial storage at the start, total storage at the end of a node -/
def GStates (p : GProb) (x : Nat → Rat) (v : Nat) (soc : Nat → Nat → Rat) (nodes : Nat) : Prop :=
  ∀ n, n < nodes → p.val x (.part, [v]) n = soc n 0 ∧ p.val x (.tot, [v]) n = soc n 1

theorem enRules_congr {t : EnTree} {n : Nat} {wght net net' : Nat → Rat} {soc : Nat → Nat → Rat} (h : ∀ x, x < n → net x = net' x)
    (hr : EnRules t n wght net soc) : EnRules t n wght net' soc :=
  ⟨hr.root, fun x b h1 h2 h3 => by rw [hr.balance x b h1 h2 h3, h x h2], hr.aggregate, hr.stochastic⟩

/-- **C148.** The two implementations describe the same plans: without uncertainty, the points of the program for GLPK are, for each
vector, the non-negative solutions of the constraints of the first implementation with the inputs and outputs of the data. -/
theorem C148_same_partial {data : List EnPeriod} {fix : Option Nat} {size : EnSize} {t : EnTree} {w : EnWeights} {links : EnLinks}
    (h : enInitialise data fix = .ok (size, t, w, links)) (hpos : ∀ d ∈ data, 0 < d.names) (hunc : ∀ d ∈ data, d.unc = false)
    {p : GProb} {lp : GLp} (hr : geRun (geData size w links) = .ok (p, lp)) (win wout : Nat → Nat → Rat) (wght : Nat → Rat)
    (hw : ∀ n, (w.wght[n]?).getD 0 = wght n) (hin : ∀ v n, ((w.win[n]?).bind (fun r => r[v]?)).getD 0 = win v n)
    (hout : ∀ v n, ((w.wout[n]?).bind (fun r => r[v]?)).getD 0 = wout v n) (h0 : ∀ v, win v 0 = wout v 0) (x : Nat → Rat) :
    GFeasible lp x ↔ ∀ v, v < size.vectors → ∃ soc, GStates p x v soc size.nodes ∧
      EnFeasible links wght (win v) (wout v) soc ∧ (∀ n, n < size.nodes → 0 ≤ soc n 0 ∧ 0 ≤ soc n 1) ∧
      ∀ n, n < size.nodes → p.val x (.inp, [v]) n = win v n ∧ p.val x (.outp, [v]) n = wout v n := by
  obtain ⟨ht, hsum, hn⟩ := geTree_of h hpos hunc
  obtain ⟨hp, hb⟩ := geRun_parts ht hr
  obtain ⟨hs, hf⟩ := initialise_feasible h hpos (fun d hd => hunc d (List.mem_of_getElem? hd)) (by omega)
  have hfit : GFits p.rows := by
    rw [hp]
    exact fun g hg => (geRows_good ht (rel := []) (p := ⟨geCols _ [], [], []⟩) (fun g hg => hg) g hg).1
  rw [gFeasible_iff hb hfit x]
  have e1 : GNamed p x ↔ GeSays (geData size w links) t [] p x := by
    rw [← geNamed ht [] p x]
    constructor
    · intro hx
      have a := hx.cols
      have b := hx.rows
      rw [hp] at a b
      rw [hp]
      exact ⟨a, b⟩
    · rintro ⟨a, b⟩
      rw [hp] at a b ⊢
      exact ⟨a, b⟩
  rw [e1]
  have hwg : (geData size w links).wght = wght := by funext n; exact hw n
  have hwin : ∀ v n, (geData size w links).win v n = win v n := fun v n => hin v n
  have hwout : ∀ v n, (geData size w links).wout v n = wout v n := fun v n => hout v n
  constructor
  · intro hs v hv
    obtain ⟨s1, s2, s3, s4⟩ := hs v hv
    have s5 : ∀ n, n < size.nodes → p.val x (.inp, [v]) n = win v n ∧ p.val x (.outp, [v]) n = wout v n := fun n hn =>
      ⟨by rw [s3 n hn, hwin], by rw [(s4 n hn).2 (by simp), hwout]⟩
    refine ⟨gSoc p x v, fun n _ => ⟨rfl, rfl⟩, (hf wght (win v) (wout v) _).2 ⟨?_, h0 v⟩, s2, s5⟩
    rw [hwg] at s1
    exact enRules_congr (fun n hn => by rw [(s5 n hn).1, (s5 n hn).2]) s1
  · intro hs v hv
    obtain ⟨soc, s0, s1, s2, s3⟩ := hs v hv
    have r := ((hf wght (win v) (wout v) _).1 s1).1
    have st : ∀ n, n < size.nodes → ∀ e, (e = 0 ∨ e = 1) → gSoc p x v n e = soc n e := by
      intro n hn e he
      rcases he with rfl | rfl
      · exact (s0 n hn).1
      · exact (s0 n hn).2
    refine ⟨?_, ?_, ?_, ?_⟩
    · rw [hwg]
      refine enRules_congr (net := fun n => win v n - wout v n) (fun n hn => by rw [(s3 n hn).1, (s3 n hn).2]) ⟨?_, ?_, ?_, ?_⟩
      · exact ⟨by rw [st 0 (by omega) 0 (.inl rfl)]; exact r.root.1, by rw [st 0 (by omega) 1 (.inr rfl)]; exact r.root.2⟩
      · intro n b h1 h2 hb
        obtain ⟨q1, q2, q3⟩ := geTree_states ht h1 h2
        rw [← Option.some.inj ((geTree_before ht h2).symm.trans hb |>.symm)] at q1 q2
        rw [st n h2 0 (.inl rfl), st _ (lt_trans q1 h2) _ q2]
        exact r.balance n b h1 h2 hb
      · intro n b h1 h2 hu hb
        obtain ⟨q1, q2, q3⟩ := geTree_states ht h1 h2
        rw [← Option.some.inj ((geTree_before ht h2).symm.trans hb |>.symm)] at q1 q2 q3
        have q4 : gSoc p x v b.back.1 b.back.2 = soc b.back.1 b.back.2 := by
          rcases q3 with e | ⟨m, _, hm, e⟩ <;> rw [e]
          · exact st n h2 0 (.inl rfl)
          · exact st m hm 1 (.inr rfl)
        rw [st n h2 1 (.inr rfl), st _ (lt_trans q1 h2) _ q2, q4]
        exact r.aggregate n b h1 h2 hu hb
      · intro n b r h1 h2 hu
        rw [ht.marks n h2] at hu
        simp at hu
    · intro n hn
      rw [st n hn 0 (.inl rfl), st n hn 1 (.inr rfl)]
      exact s2 n hn
    · intro n hn
      rw [(s3 n hn).1, hwin]
    · intro n hn
      exact ⟨fun hm => by simp at hm, fun _ => by rw [(s3 n hn).2, hwout]⟩

/-- the states that the data determine are what GLPK returns, if they are not negative -/
theorem geReturned {data : List EnPeriod} {fix : Option Nat} {size : EnSize} {t : EnTree} {w : EnWeights} {links : EnLinks}
    (h : enInitialise data fix = .ok (size, t, w, links)) (hpos : ∀ d ∈ data, 0 < d.names) (hunc : ∀ d ∈ data, d.unc = false)
    (hv : 0 < size.vectors)
    {p : GProb} {lp : GLp} (hr : geRun (geData size w links) = .ok (p, lp)) (win wout : Nat → Nat → Rat) (wght : Nat → Rat)
    (hw : ∀ n, (w.wght[n]?).getD 0 = wght n) (hin : ∀ v n, ((w.win[n]?).bind (fun r => r[v]?)).getD 0 = win v n)
    (hout : ∀ v n, ((w.wout[n]?).bind (fun r => r[v]?)).getD 0 = wout v n) (h0 : ∀ v, win v 0 = wout v 0)
    (soc : Nat → Nat → Nat → Rat) (hs : ∀ v, v < size.vectors → EnFeasible links wght (win v) (wout v) (soc v) ∧
      ∀ n, n < size.nodes → 0 ≤ soc v n 0 ∧ 0 ≤ soc v n 1)
    (x : Nat → Rat) (hx : GReturned lp x) : GFeasible lp x ∧ ∀ v, v < size.vectors → GStates p x v (soc v) size.nodes := by
  obtain ⟨ht, hsum, hn⟩ := geTree_of h hpos hunc
  obtain ⟨hp, hb⟩ := geRun_parts ht hr
  have hsame := C148_same_partial h hpos hunc hr win wout wght hw hin hout h0
  have huniq : ∀ y, GFeasible lp y → ∀ v, v < size.vectors → GStates p y v (soc v) size.nodes := by
    intro y hy v hv n hn'
    obtain ⟨s', e1, e2, _⟩ := (hsame y).1 hy v hv
    obtain ⟨s0, _, e3⟩ := C95_solution h hpos (fun d hd => hunc d (List.mem_of_getElem? hd)) (by omega) wght (win v) (wout v) (h0 v)
    have a := e3 s' e2 n hn'
    have b := e3 (soc v) (hs v hv).1 n hn'
    obtain ⟨c1, c2⟩ := e1 n hn'
    exact ⟨by rw [c1, a.1, b.1], by rw [c2, a.2, b.2]⟩
  obtain ⟨y, hy⟩ := gEncode p.cols ((gBuild_iff p lp).1 hb).colKeys (fun k n => match k with
    | (.part, [v]) => soc v n 0
    | (.tot, [v]) => soc v n 1
    | (.inp, [v]) => win v n
    | (.outp, [v]) => wout v n
    | _ => 0)
  have hval : ∀ (k : GKey) (bs : List GBnd), (k, bs) ∈ p.cols → ∀ n, n < bs.length → p.val y k n = _ := fun k bs hk n hn => hy (k, bs) hk n hn
  have hfy : GFeasible lp y := by
    rw [hsame y]
    intro v hv
    obtain ⟨m1, m2, m3, m4⟩ := geCols_mem (d := geData size w links) (rel := []) hv
    refine ⟨soc v, ?_, (hs v hv).1, (hs v hv).2, ?_⟩
    · intro n hn
      exact ⟨hval _ _ (by rw [hp]; exact m1) n (by simpa [geData] using hn), hval _ _ (by rw [hp]; exact m2) n (by simpa [geData] using hn)⟩
    · intro n hn
      exact ⟨hval _ _ (by rw [hp]; exact m3) n (by simpa [geData] using hn), hval _ _ (by rw [hp]; exact m4) n (by simpa [geData] using hn)⟩
  have hcost : ∀ z, GFeasible lp z → lp.cost z = soc 0 1 0 := by
    intro z hz
    rw [gCost_eq ((gBuild_iff p lp).1 hb) z, hp]
    have := (huniq z hz 0 hv 1 hn).1
    rw [hp] at this
    simp only [List.map_cons, List.map_nil, List.sum_cons, List.sum_nil]
    rw [this]
    ring
  have hfx := (hx ⟨y, hfy, fun z hz => by rw [hcost y hfy, hcost z hz]⟩).1
  exact ⟨hfx, huniq x hfx⟩

/-- **C148.** The states that the data determine are what GLPK returns, if they are not negative. -/
theorem C148_returned_partial {data : List EnPeriod} {fix : Option Nat} {size : EnSize} {t : EnTree} {w : EnWeights} {links : EnLinks}
    (h : enInitialise data fix = .ok (size, t, w, links)) (hpos : ∀ d ∈ data, 0 < d.names) (hunc : ∀ d ∈ data, d.unc = false)
    (hv : 0 < size.vectors)
    {p : GProb} {lp : GLp} (hr : geRun (geData size w links) = .ok (p, lp)) (win wout : Nat → Nat → Rat) (wght : Nat → Rat)
    (hw : ∀ n, (w.wght[n]?).getD 0 = wght n) (hin : ∀ v n, ((w.win[n]?).bind (fun r => r[v]?)).getD 0 = win v n)
    (hout : ∀ v n, ((w.wout[n]?).bind (fun r => r[v]?)).getD 0 = wout v n) (h0 : ∀ v, win v 0 = wout v 0)
    (soc : Nat → Nat → Nat → Rat) (hs : ∀ v, v < size.vectors → EnFeasible links wght (win v) (wout v) (soc v) ∧
      ∀ n, n < size.nodes → 0 ≤ soc v n 0 ∧ 0 ≤ soc v n 1)
    (x : Nat → Rat) (hx : GReturned lp x) : ∀ v, v < size.vectors → GStates p x v (soc v) size.nodes :=
  (geReturned h hpos hunc hv hr win wout wght hw hin hout h0 soc hs x hx).2

/-- **C148 fails** silently if a state would be negative: the program has no solution, the call returns normally, and what it returns is
not determined by the data. -/
theorem C148_negative_violated {data : List EnPeriod} {fix : Option Nat} {size : EnSize} {t : EnTree} {w : EnWeights} {links : EnLinks}
    (h : enInitialise data fix = .ok (size, t, w, links)) (hpos : ∀ d ∈ data, 0 < d.names) (hunc : ∀ d ∈ data, d.unc = false)
    (win wout : Nat → Nat → Rat) (wght : Nat → Rat)
    (hw : ∀ n, (w.wght[n]?).getD 0 = wght n) (hin : ∀ v n, ((w.win[n]?).bind (fun r => r[v]?)).getD 0 = win v n)
    (hout : ∀ v n, ((w.wout[n]?).bind (fun r => r[v]?)).getD 0 = wout v n) (h0 : ∀ v, win v 0 = wout v 0)
    (v : Nat) (hv : v < size.vectors) (soc : Nat → Nat → Rat) (hs : EnFeasible links wght (win v) (wout v) soc)
    (n : Nat) (hn : n < size.nodes) (hneg : soc n 0 < 0 ∨ soc n 1 < 0) :
    ∃ p lp, geRun (geData size w links) = .ok (p, lp) ∧ (∀ x, ¬ GFeasible lp x) ∧ ∀ x, GReturned lp x := by
  obtain ⟨_, hsum, _⟩ := geTree_of h hpos hunc
  obtain ⟨p, lp, hr⟩ := C148_runs_partial h hpos hunc (by omega)
  have hno : ∀ x, ¬ GFeasible lp x := by
    intro x hx
    obtain ⟨s', _, e2, e4, _⟩ := (C148_same_partial h hpos hunc hr win wout wght hw hin hout h0 x).1 hx v hv
    obtain ⟨s0, _, e3⟩ := C95_solution h hpos (fun d hd => hunc d (List.mem_of_getElem? hd)) (by omega) wght (win v) (wout v) (h0 v)
    have a := e3 s' e2 n hn
    have b := e3 soc hs n hn
    have c := e4 n hn
    rw [a.1, a.2, ← b.1, ← b.2] at c
    rcases hneg with hneg | hneg
    · exact absurd c.1 (not_le.2 hneg)
    · exact absurd c.2 (not_le.2 hneg)
  exact ⟨p, lp, hr, hno, fun x ⟨y, hy, _⟩ => absurd hy (hno y)⟩

theorem mapM_fails {α β : Type} {f : α → Except PyErr β} {e : PyErr} : ∀ (l : List α), (∀ a ∈ l, ∀ e', f a = .error e' → e' = e) →
    (∃ a ∈ l, ∃ e', f a = .error e') → l.mapM f = .error e := by
  intro l
  induction l with
  | nil => intro _ h; obtain ⟨a, ha, _⟩ := h; simp at ha
  | cons a l ih =>
    intro h1 h2
    rw [List.mapM_cons]
    cases hf : f a with
    | error e' =>
      have := h1 a (by simp) e' hf
      subst this
      rfl
    | ok b =>
      have : l.mapM f = .error e := by
        refine ih (fun a' ha' => h1 a' (by simp [ha'])) ?_
        obtain ⟨a', ha', e', he⟩ := h2
        rcases List.mem_cons.1 ha' with rfl | ha'
        · rw [hf] at he; simp at he
        · exact ⟨a', ha', e', he⟩
      simp only [bind, Except.bind, this]

theorem npGet_error {α : Type} {l : List α} {i : Nat} {e : PyErr} (h : npGet l i = .error e) : e = .index := by
  unfold npGet at h
  split at h
  · simp at h
  · simp at h; exact h.symm

/-- **C148 fails** with uncertainty: as soon as one node is uncertain the constraints are written outside a list, and the
call fails with an IndexError, for every tree, although the first implementation accepts it. -/
theorem C148_uncertain_violated {data : List EnPeriod} {fix : Option Nat} {size : EnSize} {t : EnTree} {w : EnWeights} {links : EnLinks}
    (h : enInitialise data fix = .ok (size, t, w, links)) (hpos : ∀ d ∈ data, 0 < d.names)
    (hroot : ∀ d, data[0]? = some d → d.unc = false) (hunc : t.uncertainty.sum ≠ 0) (hv : 0 < size.vectors) :
    geRun (geData size w links) = .error .index := by
  obtain ⟨hs, h0, hl⟩ := enInitialise_shape h hpos hroot
  have hsum := unc_sum hs h0
  have hlen : links.ll2.length < size.nodes := by
    rw [hl]
    have := List.length_eq_length_filter_add (l := List.range' 1 (size.nodes - 1)) (fun x => markAt t x == 0)
    rw [List.length_range'] at this
    simp only [List.length_cons, List.length_map]
    omega
  have hpos' := hs.pos
  have hn : 1 < size.nodes := by
    rcases Nat.lt_or_ge 1 size.nodes with h | h
    · exact h
    · exfalso
      rw [show size.nodes - 1 = 0 by omega] at hsum
      simp at hsum
      exact hunc hsum
  have hb : ∀ v, ∃ rows, (List.range' 1 (size.nodes - 1)).mapM (geBalance (geData size w links) v) = .ok rows := by
    intro v
    refine mapM_total_of _ _ ?_
    intro n hn
    have : n < links.ll1.length := by
      rw [hl]
      simp only [List.length_set, List.length_map, hs.lens.1]
      exact (mem_inner.1 hn).2
    unfold geBalance
    rw [npGet_some (List.getElem?_eq_getElem (show n < (geData size w links).links.ll1.length from this))]
    exact ⟨_, rfl⟩
  have ha : ∀ v, (List.range' 1 (size.nodes - 1)).mapM (geAggregation (geData size w links) v) = .error .index := by
    intro v
    apply mapM_fails
    · intro n _ e he
      unfold geAggregation at he
      cases h1 : npGet (geData size w links).links.ll2 n with
      | error e' => rw [h1] at he; simp only [bind, Except.bind, Except.error.injEq] at he; subst he; exact npGet_error h1
      | ok r =>
        rw [h1] at he
        simp only [bind, Except.bind] at he
        cases h2 : npGet (geData size w links).links.ll1 r.1 with
        | error e' => rw [h2] at he; simp only [Except.error.injEq] at he; subst he; exact npGet_error h2
        | ok s => rw [h2] at he; simp at he
    · refine ⟨size.nodes - 1, mem_inner.2 ⟨by omega, by omega⟩, .index, ?_⟩
      unfold geAggregation npGet
      rw [List.getElem?_eq_none (show (geData size w links).links.ll2.length ≤ size.nodes - 1 by
        show links.ll2.length ≤ _
        omega)]
      rfl
  have hrows : geRows (geData size w links) = .error .index := by
    unfold geRows
    obtain ⟨tb, htb⟩ : ∃ tb, (List.range (geData size w links).vectors).mapM (fun v => do
        let rows ← (List.range' 1 ((geData size w links).nodes - 1)).mapM (geBalance (geData size w links) v)
        .ok (⟨(.tb, [v]), (geData size w links).nodes - 1, rows⟩ : GRows)) = .ok tb := by
      refine mapM_total_of _ _ ?_
      intro v _
      obtain ⟨rows, hrows⟩ := hb v
      exact ⟨⟨(.tb, [v]), (geData size w links).nodes - 1, rows⟩, by
        show (do
          let rows ← (List.range' 1 (size.nodes - 1)).mapM (geBalance (geData size w links) v)
          Except.ok (⟨(.tb, [v]), (geData size w links).nodes - 1, rows⟩ : GRows)) = _
        rw [hrows]; rfl⟩
    rw [htb]
    simp only [bind, Except.bind]
    rw [mapM_fails (e := .index)]
    · intro v _ e he
      have : (List.range' 1 ((geData size w links).nodes - 1)).mapM (geAggregation (geData size w links) v) = .error .index := ha v
      rw [this] at he
      simp only [Except.error.injEq] at he
      exact he.symm
    · refine ⟨0, by simpa [geData] using hv, .index, ?_⟩
      have : (List.range' 1 ((geData size w links).nodes - 1)).mapM (geAggregation (geData size w links) 0) = .error .index := ha 0
      rw [this]
  unfold geRun geProb
  rw [hrows]
  rfl

/-- a tree of two weeks with two kinds of days: `o` leaves on the first kind -/
def exGe (o : Rat) : List EnPeriod :=
  [⟨2, [1, 1], .mat [[0, 0]], .mat [[0, 0]], false⟩, ⟨2, [5, 2], .mat [[3, 1]], .mat [[o, 1]], false⟩]

def exGeSize : EnSize := ⟨2, [2, 2], 5, 4, 1, 7⟩

def exGeTree : EnTree :=
  ⟨[⟨(0, 0), (0, 0)⟩, ⟨(0, 0), (4, 1)⟩, ⟨(1, 1), (6, 1)⟩, ⟨(1, 0), (3, 0)⟩, ⟨(3, 1), (4, 0)⟩, ⟨(2, 0), (5, 0)⟩, ⟨(5, 1), (6, 0)⟩],
    [(1, 2), (3, 4), (5, 6), (0, 0), (0, 0), (0, 0), (0, 0)], [(0, 3), (0, 1), (2, 3), (0, 0), (1, 1), (2, 2), (3, 3)],
    [0, 0, 0, 0, 0, 0, 0], [0, 1, 2, 3, 4, 3, 4], [(0, 0), (1, 2), (3, 6)]⟩

def exGeW (o : Rat) : EnWeights :=
  ⟨[1, 1, 1, 5, 2, 5, 2], [[0], [0], [0], [3], [1], [3], [1]], [[0], [0], [0], [o], [1], [o], [1]]⟩

def exGeLinks : EnLinks :=
  ⟨[(0, 0), (0, 0), (1, 1), (1, 0), (3, 1), (2, 0), (5, 1)],
    [(0, (0, 0)), (1, (4, 1)), (2, (6, 1)), (3, (3, 0)), (4, (4, 0)), (5, (5, 0)), (6, (6, 0))], [], 0⟩

/-- the states of `exGe o` -/
def exGeSoc (o : Rat) (n e : Nat) : Rat :=
  (([[0, 0], [0, 5], [5, 10], [1, 5], [5, 5], [6, 10], [10, 10]] : List (List Rat)).getD n []).getD e 0 * (3 - o)

theorem exGe_feasible (o : Rat) (v : Nat) (hv : v < 1) : EnFeasible exGeLinks (fun n => ((exGeW o).wght[n]?).getD 0)
    (fun n => (((exGeW o).win[n]?).bind (fun r => r[v]?)).getD 0) (fun n => (((exGeW o).wout[n]?).bind (fun r => r[v]?)).getD 0)
    (exGeSoc o) := by
  obtain rfl : v = 0 := by omega
  refine ⟨by simp [exGeSoc], ?_, ?_, ?_⟩
  · intro x b hb
    have hx : x = 0 ∨ x = 1 ∨ x = 2 ∨ x = 3 ∨ x = 4 ∨ x = 5 ∨ x = 6 := by
      have := (List.getElem?_eq_some_iff.1 hb).1
      simp [exGeLinks] at this
      omega
    rcases hx with rfl | rfl | rfl | rfl | rfl | rfl | rfl <;> simp [exGeLinks] at hb <;> subst hb <;>
      simp [exGeSoc, exGeW] <;> ring
  · intro r hr b hb
    simp only [exGeLinks, List.mem_cons, List.not_mem_nil, or_false] at hr
    rcases hr with rfl | rfl | rfl | rfl | rfl | rfl | rfl <;> simp [exGeLinks] at hb <;> subst hb <;>
      simp [exGeSoc, exGeW] <;> ring
  · intro h
    exact absurd rfl h

/-- the hypotheses of the theorems of C148 are met: the states of a tree with two levels -/
theorem C148_witness : enInitialise (exGe 1) none = .ok (exGeSize, exGeTree, exGeW 1, exGeLinks) ∧
    ∃ p lp, geRun (geData exGeSize (exGeW 1) exGeLinks) = .ok (p, lp) ∧ (∃ x, GFeasible lp x) ∧
      ∀ x, GReturned lp x → p.val x (.part, [0]) 3 = 2 ∧ p.val x (.tot, [0]) 3 = 10 ∧ p.val x (.tot, [0]) 2 = 20 := by
  have h : enInitialise (exGe 1) none = .ok (exGeSize, exGeTree, exGeW 1, exGeLinks) := by decide +kernel
  have hpos : ∀ d ∈ exGe 1, 0 < d.names := by decide +kernel
  have hunc : ∀ d ∈ exGe 1, d.unc = false := by decide +kernel
  have h0 : ∀ v : Nat, (((exGeW 1).win[0]?).bind (fun r => r[v]?)).getD 0 = (((exGeW 1).wout[0]?).bind (fun r => r[v]?)).getD 0 := fun v => rfl
  have hs : ∀ v, v < exGeSize.vectors → EnFeasible exGeLinks (fun n => ((exGeW 1).wght[n]?).getD 0)
      (fun n => (((exGeW 1).win[n]?).bind (fun r => r[v]?)).getD 0) (fun n => (((exGeW 1).wout[n]?).bind (fun r => r[v]?)).getD 0)
      (exGeSoc 1) ∧ ∀ n, n < exGeSize.nodes → 0 ≤ exGeSoc 1 n 0 ∧ 0 ≤ exGeSoc 1 n 1 := by
    intro v hv
    refine ⟨exGe_feasible 1 v hv, ?_⟩
    decide +kernel
  obtain ⟨p, lp, hr⟩ := C148_runs_partial h hpos hunc (by decide)
  refine ⟨h, p, lp, hr, ?_, fun x hx => ?_⟩
  · obtain ⟨ht, hsum, hn⟩ := geTree_of h hpos hunc
    obtain ⟨hp, hb⟩ := geRun_parts ht hr
    obtain ⟨y, hy⟩ := gEncode p.cols ((gBuild_iff p lp).1 hb).colKeys (fun k n => match k with
      | (.part, _) => exGeSoc 1 n 0
      | (.tot, _) => exGeSoc 1 n 1
      | (.inp, [v]) => (((exGeW 1).win[n]?).bind (fun r => r[v]?)).getD 0
      | (.outp, [v]) => (((exGeW 1).wout[n]?).bind (fun r => r[v]?)).getD 0
      | _ => 0)
    have hval : ∀ (k : GKey) (bs : List GBnd), (k, bs) ∈ p.cols → ∀ n, n < bs.length → p.val y k n = _ := fun k bs hk n hn => hy (k, bs) hk n hn
    refine ⟨y, ?_⟩
    rw [C148_same_partial h hpos hunc hr (fun v n => (((exGeW 1).win[n]?).bind (fun r => r[v]?)).getD 0)
      (fun v n => (((exGeW 1).wout[n]?).bind (fun r => r[v]?)).getD 0) (fun n => ((exGeW 1).wght[n]?).getD 0) (fun _ => rfl)
      (fun _ _ => rfl) (fun _ _ => rfl) h0 y]
    intro v hv
    obtain ⟨m1, m2, m3, m4⟩ := geCols_mem (d := geData exGeSize (exGeW 1) exGeLinks) (rel := []) hv
    refine ⟨exGeSoc 1, ?_, (hs v hv).1, (hs v hv).2, ?_⟩
    · intro n hn
      exact ⟨hval _ _ (by rw [hp]; exact m1) n (by simpa [geData] using hn), hval _ _ (by rw [hp]; exact m2) n (by simpa [geData] using hn)⟩
    · intro n hn
      exact ⟨hval _ _ (by rw [hp]; exact m3) n (by simpa [geData] using hn), hval _ _ (by rw [hp]; exact m4) n (by simpa [geData] using hn)⟩
  · have := C148_returned_partial h hpos hunc (by decide) hr _ _ _ (fun _ => rfl) (fun _ _ => rfl) (fun _ _ => rfl) h0
      (fun _ => exGeSoc 1) hs x hx 0 (by decide)
    refine ⟨(this 3 (by decide)).1.trans (by decide +kernel), (this 3 (by decide)).2.trans (by decide +kernel),
      (this 2 (by decide)).2.trans (by decide +kernel)⟩

/-- the hypotheses of `C148_negative_violated` are met: more leaves on the first days than enters -/
theorem C148_negative_witness : ∃ p lp, enInitialise (exGe 4) none = .ok (exGeSize, exGeTree, exGeW 4, exGeLinks) ∧
    geRun (geData exGeSize (exGeW 4) exGeLinks) = .ok (p, lp) ∧ (∀ x, ¬ GFeasible lp x) ∧ ∀ x, GReturned lp x := by
  have h : enInitialise (exGe 4) none = .ok (exGeSize, exGeTree, exGeW 4, exGeLinks) := by decide +kernel
  obtain ⟨p, lp, h1, h2⟩ := C148_negative_violated h (by decide +kernel) (by decide +kernel) _ _ _ (fun _ => rfl) (fun _ _ => rfl)
    (fun _ _ => rfl) (fun _ => rfl) 0 (by decide) _ (exGe_feasible 4 0 (by decide)) 3 (by decide) (.inl (by decide +kernel))
  exact ⟨p, lp, h, h1, h2⟩

/-- the hypotheses of `C148_uncertain_violated` are met by the example with two uncertain nodes -/
theorem C148_uncertain_witness : ∃ size t w links, enInitialise twoUncertain none = .ok (size, t, w, links) ∧
    t.uncertainty.sum = 2 ∧ geRun (geData size w links) = .error .index := by
  have h : (enInitialise twoUncertain none).toOption.map (fun r => (r.2.1.uncertainty.sum, r.1.vectors)) = some (2, 1) := by decide +kernel
  cases hr : enInitialise twoUncertain none with
  | error e => rw [hr] at h; simp [Except.toOption] at h
  | ok r =>
    obtain ⟨size, t, w, links⟩ := r
    rw [hr] at h
    simp only [Except.toOption, Option.map_some, Option.some.injEq, Prod.mk.injEq] at h
    exact ⟨size, t, w, links, rfl, h.1, C148_uncertain_violated hr (by decide +kernel)
      (by intro d hd; simp [twoUncertain] at hd; subst hd; rfl) (by omega) (by omega)⟩

end Pyensys
