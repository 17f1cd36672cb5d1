import Verif.Model.Hydrology
import Verif.Props.Energy
import Verif.Props.Coupled

/-!
# Hydrology: rivers and their parts (C135), rivers of a node (C136)
-/

namespace Pyensys

/-! ## specification -/

/-- the rivers of a list follow each other from node `a` to node `b` -/
def RiverPath (a b : Nat) : List River → Prop
  | [] => False
  | [r] => r.frm = a ∧ r.dest = b
  | r :: s :: l => r.frm = a ∧ RiverPath r.dest b (s :: l)

/-- the nodes between the parts of a river -/
def innerNodes (l : List River) : List Nat := (l.drop 1).map (·.frm)

/-- a block of parts stands for a river: they lead from its first to its last node, share its length and volume, have its flows and speeds, and only the first one takes part in
the division of the water of its node -/
structure PartsOf (r : River) (p : Nat) (block : List River) : Prop where
  length : block.length = p
  path : RiverPath r.frm r.dest block
  total : (block.map (·.length)).sum = r.length
  volume : (block.map (·.vmin)).sum = r.vmin
  equal : ∀ s ∈ block, s.length = r.length / p ∧ s.qmax = r.qmax ∧ s.qmin = r.qmin ∧ s.smax = r.smax ∧ s.smin = r.smin
  share : block.map (·.share) = r.share :: List.replicate (p - 1) 1

/-- parts as a user may give them: none, one number for all rivers, or one per river; all positive -/
def PartsGiven (given : List Nat) (n : Nat) : Prop :=
  given = [] ∨ (∃ p, 0 < p ∧ given = [p]) ∨ (given.length = n ∧ ∀ p ∈ given, 0 < p)

/-- the number of parts of every river that a user asks for: one, the one number given for all, or the number given for it -/
def partsSpec (given : List Nat) (n : Nat) : List Nat :=
  (List.range n).map (fun i => if given = [] then 1 else if given.length = 1 then given.headD 1 else given.getD i 1)

theorem hyParts_spec {given : List Nat} {n : Nat} (h : PartsGiven given n) : hyParts given n = partsSpec given n := by
  unfold hyParts partsSpec
  apply List.ext_getElem
  · rcases h with rfl | ⟨p, _, rfl⟩ | ⟨h1, _⟩
    · simp
    · simp
    · match given, h1 with
      | [], _ => simp
      | [p], _ => simp
      | _ :: _ :: _, h1 => simpa using h1
  · intro i h1 h2
    simp only [List.length_map, List.length_range] at h2
    rcases h with rfl | ⟨p, _, rfl⟩ | ⟨h3, _⟩
    · simp
    · simp
    · match given, h3 with
      | [], _ => simp
      | [p], _ => simp
      | a :: b :: l, h3 =>
        simp only [List.getElem_map, List.getElem_range]
        rw [if_neg (by simp), if_neg (by simp), List.getD_eq_getElem?_getD, List.getElem?_eq_getElem (by omega), Option.getD_some]

/-! ## parts -/

theorem partLoop_spec (r : River) : ∀ (k : Nat) (cur : River) (xn : Nat),
    (partLoop r k cur xn).2 = xn + k ∧ (partLoop r k cur xn).1.length = k + 1 ∧ RiverPath cur.frm r.dest (partLoop r k cur xn).1 ∧
    innerNodes (partLoop r k cur xn).1 = List.range' (xn + 1) k ∧
    (∀ s ∈ (partLoop r k cur xn).1, s.length = cur.length ∧ s.qmax = cur.qmax ∧ s.qmin = cur.qmin ∧ s.smax = cur.smax ∧ s.smin = cur.smin ∧ s.vmin = cur.vmin) ∧
    (partLoop r k cur xn).1.map (·.share) = cur.share :: List.replicate k 1 ∧ ∃ s l, (partLoop r k cur xn).1 = s :: l ∧ s.frm = cur.frm := by
  intro k
  induction k with
  | zero =>
    intro cur xn
    refine ⟨rfl, rfl, ⟨rfl, rfl⟩, rfl, ?_, rfl, _, _, rfl, rfl⟩
    intro s hs
    simp only [partLoop, List.mem_cons, List.not_mem_nil, or_false] at hs
    subst hs
    exact ⟨rfl, rfl, rfl, rfl, rfl, rfl⟩
  | succ k ih =>
    intro cur xn
    obtain ⟨h1, h2, h3, h4, h5, h6, s, l, h7, h8⟩ := ih { cur with frm := xn + 1, share := 1 } (xn + 1)
    have e : partLoop r (k + 1) cur xn = ({ cur with dest := xn + 1 } :: (partLoop r k { cur with frm := xn + 1, share := 1 } (xn + 1)).1,
        (partLoop r k { cur with frm := xn + 1, share := 1 } (xn + 1)).2) := rfl
    rw [e]
    refine ⟨by simp only [h1]; omega, by simp only [List.length_cons, h2], ?_, ?_, ?_, ?_, _, _, rfl, rfl⟩
    · simp only
      rw [h7] at h3 ⊢
      exact ⟨rfl, h3⟩
    · simp only at h4 ⊢
      unfold innerNodes at h4 ⊢
      rw [List.drop_one, List.tail_cons]
      rw [h7] at h4 ⊢
      rw [List.map_cons, List.range'_succ, h8]
      rw [List.drop_one, List.tail_cons] at h4
      rw [h4]
    · intro t ht
      rcases List.mem_cons.1 ht with rfl | ht
      · exact ⟨rfl, rfl, rfl, rfl, rfl, rfl⟩
      · exact h5 t ht
    · simp only at h6 ⊢
      rw [List.map_cons, h6]
      rfl

theorem sum_const_len {α : Type} (l : List α) (f : α → Rat) (c : Rat) (h : ∀ a ∈ l, f a = c) : (l.map f).sum = l.length * c := by
  induction l with
  | nil => simp
  | cons a l ih =>
    rw [List.map_cons, List.sum_cons, h a List.mem_cons_self, ih (fun b hb => h b (List.mem_cons_of_mem _ hb)), List.length_cons]
    push_cast
    ring

theorem partRiver_spec (r : River) (p xn : Nat) (hp : 0 < p) : ∃ block, partRiver r p xn = .ok (block, xn + (p - 1)) ∧ PartsOf r p block ∧ innerNodes block = List.range' (xn + 1) (p - 1) := by
  obtain ⟨h1, h2, h3, h4, h5, h6, _⟩ := partLoop_spec r (p - 1) { r with length := r.length / p, vmin := r.vmin / p } xn
  have hne : (p : Rat) ≠ 0 := by
    have : (0 : Rat) < p := by exact_mod_cast hp
    exact ne_of_gt this
  have hlen : (partLoop r (p - 1) { r with length := r.length / p, vmin := r.vmin / p } xn).1.length = p := by rw [h2]; omega
  refine ⟨(partLoop r (p - 1) { r with length := r.length / p, vmin := r.vmin / p } xn).1, ?_, ⟨hlen, h3, ?_, ?_, ?_, h6⟩, h4⟩
  · unfold partRiver
    rw [if_neg (by omega), ← h1]
  · rw [sum_const_len _ _ (r.length / p) (fun s hs => (h5 s hs).1), hlen]
    field_simp
  · rw [sum_const_len _ _ (r.vmin / p) (fun s hs => (h5 s hs).2.2.2.2.2), hlen]
    field_simp
  · intro s hs
    obtain ⟨a1, a2, a3, a4, a5, _⟩ := h5 s hs
    exact ⟨a1, a2, a3, a4, a5⟩

theorem partRivers_spec : ∀ (rs : List River) (ps : List Nat) (xn : Nat), rs.length ≤ ps.length → (∀ p ∈ ps, 0 < p) →
    ∃ blocks : List (List River), partRivers rs ps xn = .ok (blocks.flatten, xn + (blocks.flatMap innerNodes).length) ∧
      List.Forall₂ (fun (q : River × Nat) (block : List River) => PartsOf q.1 q.2 block) (rs.zip ps) blocks ∧
      blocks.flatMap innerNodes = List.range' (xn + 1) (blocks.flatMap innerNodes).length := by
  intro rs
  induction rs with
  | nil =>
    intro ps xn _ _
    refine ⟨[], ?_, by simp, rfl⟩
    unfold partRivers
    rfl
  | cons r rs ih =>
    intro ps xn hl hp
    cases ps with
    | nil => simp at hl
    | cons p ps =>
      obtain ⟨block, b1, b2, b3⟩ := partRiver_spec r p xn (hp p List.mem_cons_self)
      obtain ⟨blocks, c1, c2, c3⟩ := ih ps (xn + (p - 1)) (by simpa using hl) (fun q hq => hp q (List.mem_cons_of_mem _ hq))
      have hb : (innerNodes block).length = p - 1 := by rw [b3, List.length_range']
      refine ⟨block :: blocks, ?_, ?_, ?_⟩
      · unfold partRivers
        rw [b1]
        simp only [bind, Except.bind]
        rw [c1]
        simp only [List.flatten_cons, List.flatMap_cons, List.length_append, hb, Nat.add_assoc]
      · rw [List.zip_cons_cons]
        exact List.Forall₂.cons b2 c2
      · rw [List.flatMap_cons, List.length_append, hb, b3, c3, ← List.range'_append_1 (s := xn + 1)]
        rw [List.length_range']
        congr 2
        omega

theorem hyParts_given {given : List Nat} {n : Nat} (h : PartsGiven given n) : (hyParts given n).length = n ∧ (∀ p ∈ hyParts given n, 0 < p) := by
  rcases h with rfl | ⟨p, hp, rfl⟩ | ⟨h1, h2⟩
  · simp [hyParts]
  · simp only [hyParts, List.length_replicate, true_and]
    intro q hq
    rw [(List.mem_replicate.1 hq).2]
    exact hp
  · unfold hyParts
    split
    · simp at h1
      subst h1
      simp
    · rename_i p
      simp only [List.length_singleton] at h1
      subst h1
      simp only [List.replicate_one, List.length_singleton, true_and]
      exact h2
    · exact ⟨h1, h2⟩

/-- **C135**: rivers divided into parts.  With parts as a user may give them, the division succeeds and replaces every river by a chain of parts from its first to its last node
with its total length, volume, flows and share; the nodes between parts are new, different from each other and from all nodes of the network, and numbered after them. -/
theorem C135_parts_partial (rs : List River) (given : List Nat) (hrs : rs ≠ []) (hg : PartsGiven given rs.length) :
    ∃ blocks : List (List River), buildParts rs given = .ok (blocks.flatten, hyNodes rs + (blocks.flatMap innerNodes).length) ∧
      List.Forall₂ (fun (q : River × Nat) (block : List River) => PartsOf q.1 q.2 block) (rs.zip (partsSpec given rs.length)) blocks ∧
      blocks.flatMap innerNodes = List.range' (hyNodes rs + 1) (blocks.flatMap innerNodes).length ∧
      blocks.flatten.length = (partsSpec given rs.length).sum := by
  rw [← hyParts_spec hg]
  obtain ⟨h1, h2⟩ := hyParts_given hg
  obtain ⟨blocks, b1, b2, b3⟩ := partRivers_spec rs (hyParts given rs.length) (hyNodes rs) (by omega) h2
  have hlen : blocks.flatten.length = (hyParts given rs.length).sum := by
    have : ∀ (qs : List (River × Nat)) (bs : List (List River)), List.Forall₂ (fun (q : River × Nat) (block : List River) => PartsOf q.1 q.2 block) qs bs → bs.flatten.length = (qs.map (·.2)).sum := by
      intro qs bs h
      induction h with
      | nil => rfl
      | cons h _ ih => rw [List.flatten_cons, List.length_append, h.length, ih, List.map_cons, List.sum_cons]
    rw [this _ _ b2, List.map_snd_zip (by omega)]
  unfold buildParts
  rw [if_neg hrs]
  split
  · refine ⟨blocks, ?_, b2, b3, hlen⟩
    rw [b1]
    simp only [bind, Except.bind]
    rw [hlen]
    simp
  · rename_i hs
    -- every part is one
    have hone : ∀ p ∈ hyParts given rs.length, p = 1 := by
      have hgen : ∀ (l : List Nat), (∀ p ∈ l, 0 < p) → l.length ≤ l.sum ∧ (l.sum ≤ l.length → ∀ p ∈ l, p = 1) := by
        intro l
        induction l with
        | nil => intro _; simp
        | cons a l ih =>
          intro hl
          obtain ⟨i1, i2⟩ := ih (fun p hp => hl p (List.mem_cons_of_mem _ hp))
          have ha := hl a List.mem_cons_self
          rw [List.sum_cons, List.length_cons]
          refine ⟨by omega, fun h p hp => ?_⟩
          rcases List.mem_cons.1 hp with rfl | hp
          · omega
          · exact i2 (by omega) p hp
      exact (hgen _ h2).2 (by omega)
    have hrep : hyParts given rs.length = List.replicate rs.length 1 := by
      rw [List.eq_replicate_iff]
      exact ⟨h1, hone⟩
    have hinner : (rs.map (fun r => [r])).flatMap innerNodes = [] := by
      rw [List.flatMap_map]
      unfold innerNodes
      simp
    refine ⟨rs.map (fun r => [r]), ?_, ?_, ?_, ?_⟩
    · rw [hinner]
      congr 2
      clear hs hone hrep b1 b2 b3 hlen h1 h2 hg hrs hinner
      induction rs with
      | nil => rfl
      | cons r rs ih => rw [List.map_cons, List.flatten_cons, ← ih]; rfl
    · rw [hrep]
      clear hs hone hrep b1 b2 b3 hlen h1 h2 hg hrs hinner
      induction rs with
      | nil => simp
      | cons r rs ih =>
        rw [List.map_cons, List.length_cons, List.replicate_succ, List.zip_cons_cons]
        refine List.Forall₂.cons ⟨rfl, ⟨rfl, rfl⟩, by simp, by simp, ?_, rfl⟩ ih
        intro s hs
        simp only [List.mem_cons, List.not_mem_nil, or_false] at hs
        subst hs
        simp
    · rw [hinner]
      rfl
    · rw [hrep]
      simp [List.length_flatten, Function.comp_def]

end Pyensys
