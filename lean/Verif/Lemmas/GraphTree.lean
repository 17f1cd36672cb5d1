import Verif.Spec.Graph
import Mathlib.Data.List.Nodup
import Mathlib.Data.List.Perm.Basic
import Mathlib.Data.List.Perm.Lattice

/-! # Graph-to-tree conversion: invariants -/

namespace Pyensys

theorem mem_succOf {E : List (Nat × Nat)} {n b : Nat} : b ∈ succOf E n ↔ (n, b) ∈ E := by
  unfold succOf
  simp only [List.mem_map, List.mem_filter, decide_eq_true_eq]
  constructor
  · rintro ⟨⟨x, y⟩, ⟨h1, h2⟩, h3⟩
    simp only at h2 h3
    subst h2 h3
    exact h1
  · intro h
    exact ⟨(n, b), ⟨h, rfl⟩, rfl⟩

theorem mem_predOf {E : List (Nat × Nat)} {n b : Nat} : b ∈ predOf E n ↔ (b, n) ∈ E := by
  unfold predOf
  simp only [List.mem_map, List.mem_filter, decide_eq_true_eq]
  constructor
  · rintro ⟨⟨x, y⟩, ⟨h1, h2⟩, h3⟩
    simp only at h2 h3
    subst h2 h3
    exact h1
  · intro h
    exact ⟨(b, n), ⟨h, rfl⟩, rfl⟩

theorem succOf_append (E F : List (Nat × Nat)) (n : Nat) :
    succOf (E ++ F) n = succOf E n ++ succOf F n := by
  simp [succOf]

theorem succOf_eq_nil {E : List (Nat × Nat)} {n : Nat} (h : ∀ e ∈ E, e.1 ≠ n) : succOf E n = [] := by
  unfold succOf
  rw [List.map_eq_nil_iff, List.filter_eq_nil_iff]
  intro e he
  simpa using h e he

theorem succOf_nodup {E : List (Nat × Nat)} (h : E.Nodup) (n : Nat) : (succOf E n).Nodup := by
  unfold succOf
  refine List.Nodup.map_on ?_ (h.filter _)
  rintro ⟨a, b⟩ h1 ⟨c, d⟩ h2 h3
  simp only [List.mem_filter, decide_eq_true_eq] at h1 h2
  simp only at h3
  rw [h1.2, h2.2, h3]

/-- all ends of edges are at most `g` -/
def EndsLe (E : List (Nat × Nat)) (g : Nat) : Prop := ∀ e ∈ E, e.1 ≤ g ∧ e.2 ≤ g

/-- the successors of `n` in the tree stand for the successors in the graph -/
def Complete (G T : List (Nat × Nat)) (org : Nat → Nat) (n : Nat) : Prop :=
  ((succOf T n).map org).Perm (succOf G (org n))

theorem Complete.of_eq {G T T' : List (Nat × Nat)} {org org' : Nat → Nat} {n : Nat}
    (h : Complete G T org n) (hs : succOf T' n = succOf T n) (hn : org' n = org n)
    (ho : ∀ s ∈ succOf T n, org' s = org s) : Complete G T' org' n := by
  unfold Complete
  rw [hs, hn, List.map_congr_left ho]
  exact h

section
variable {D : Type} (G : List (Nat × Nat)) (lv : Nat → Nat) (L : Nat) (data0 : Nat → Option D)

/-- the labels are those of the origins -/
def DataOk (st : TreeSt D) (org : Nat → Nat) : Prop :=
  (∀ n ≤ st.greatest, st.data n = data0 (org n)) ∧ ∀ n, st.greatest < n → st.data n = none

/-- result of copying a subtree below the node `c` -/
structure Copied (st st' : TreeSt D) (org org' : Nat → Nat) (c : Nat) (new : List (Nat × Nat)) : Prop where
  edges : st'.edges = st.edges ++ new
  mono : st.greatest ≤ st'.greatest
  tails : ∀ e ∈ new, c ≤ e.1 ∧ e.1 ≤ st'.greatest
  heads : ∀ e ∈ new, st.greatest < e.2 ∧ e.2 ≤ st'.greatest
  headsAll : ∀ n, st.greatest < n → n ≤ st'.greatest → ∃ e ∈ new, e.2 = n
  nodup : (new.map (·.2)).Nodup
  org : ∀ n ≤ st.greatest, org' n = org n
  data : DataOk data0 st' org'
  complete : ∀ n, st.greatest < n → n ≤ st'.greatest → Complete G st'.edges org' n

theorem addCopy_ok {st : TreeSt D} {org : Nat → Nat} (hends : EndsLe st.edges st.greatest)
    (hd : DataOk data0 st org) {parent source o : Nat} (hsrc : source ≤ st.greatest)
    (ho : org source = o) (hsome : (data0 o).isSome) :
    ∃ st', addCopy st parent source = .ok st' ∧
      st'.edges = st.edges ++ [(parent, st.greatest + 1)] ∧ st'.greatest = st.greatest + 1 ∧
      DataOk data0 st' (fun n => if n = st.greatest + 1 then o else org n) := by
  obtain ⟨d, hd'⟩ := Option.isSome_iff_exists.1 hsome
  have h1 : st.data source = some d := by rw [hd.1 source hsrc, ho, hd']
  unfold addCopy
  rw [h1]
  refine ⟨_, rfl, ?_, rfl, ?_⟩
  · simp only [addEdge]
    rw [if_neg]
    simp only [List.contains_iff_mem]
    intro h
    have := (hends _ h).2
    simp only at this
    omega
  · refine ⟨?_, ?_⟩
    · intro n hn
      simp only at hn ⊢
      by_cases h : n = st.greatest + 1
      · rw [if_pos h, if_pos h, hd']
      · rw [if_neg h, if_neg h]
        exact hd.1 n (by omega)
    · intro n hn
      simp only at hn ⊢
      rw [if_neg (by omega)]
      exact hd.2 n (by omega)

theorem dupSucc_spec (hdata : ∀ a b, (a, b) ∈ G → (data0 b).isSome)
    (hstep : ∀ a b, (a, b) ∈ G → lv b = lv a + 1) (hbd : ∀ a b, (a, b) ∈ G → lv b ≤ L)
    (T0 : List (Nat × Nat)) (org0 : Nat → Nat) (S : Nat → Prop) (B : Nat)
    (hSB : ∀ n, S n → n ≤ B) (hSc : ∀ n, S n → Complete G T0 org0 n)
    (hSs : ∀ n, S n → ∀ s ∈ succOf T0 n, S s) :
    ∀ (fuel node : Nat) (st : TreeSt D) (org : Nat → Nat), S node → lv (org0 node) ≤ L →
    L < fuel + lv (org0 node) →
    (∀ n, S n → succOf st.edges n = succOf T0 n) → B < st.greatest → (∀ n ≤ B, org n = org0 n) →
    EndsLe st.edges st.greatest → succOf st.edges st.greatest = [] → org st.greatest = org0 node →
    DataOk data0 st org →
    ∃ st' org' new, dupSucc fuel node st = .ok st' ∧ Copied G data0 st st' org org' st.greatest new ∧
      Complete G st'.edges org' st.greatest := by
  intro fuel
  induction fuel with
  | zero =>
    intro node st org hS hL hf
    omega
  | succ fuel ih =>
    intro node st org hS hL hf hfr hB horg hends hnil hcur hd
    have hnode := hSc node hS
    have key : ∀ (ss done : List Nat) (s1 : TreeSt D) (org1 : Nat → Nat) (new1 : List (Nat × Nat)),
        (∀ s ∈ ss, s ∈ succOf T0 node) →
        Copied G data0 st s1 org org1 st.greatest new1 →
        (succOf s1.edges st.greatest).map org1 = done.map org0 →
        ∃ st' org' new, ss.foldlM (fun st2 s => do
            let st2 ← addCopy st2 st.greatest s
            dupSucc fuel s st2) s1 = .ok st' ∧
          Copied G data0 st st' org org' st.greatest new ∧
          (succOf st'.edges st.greatest).map org' = (done ++ ss).map org0 := by
      intro ss
      induction ss with
      | nil =>
        intro done s1 org1 new1 _ hc hm
        exact ⟨s1, org1, new1, rfl, hc, by simpa using hm⟩
      | cons s ss ihs =>
        intro done s1 org1 new1 hss hc hm
        have hs := hss s List.mem_cons_self
        have hSs' := hSs node hS s hs
        have hsB := hSB s hSs'
        have hsG : org0 s ∈ succOf G (org0 node) := hnode.mem_iff.1 (List.mem_map_of_mem hs)
        have hsG' := mem_succOf.1 hsG
        have hlv := hstep _ _ hsG'
        have hle := hbd _ _ hsG'
        have hmono := hc.mono
        have horg1 : ∀ n ≤ B, org1 n = org0 n := fun n hn => by
          rw [hc.org n (by omega), horg n hn]
        have hends1 : EndsLe s1.edges s1.greatest := by
          intro e he
          rw [hc.edges, List.mem_append] at he
          rcases he with he | he
          · have := hends e he
            omega
          · exact ⟨(hc.tails e he).2, (hc.heads e he).2⟩
        obtain ⟨s2, e1, e2, e3, e4⟩ := addCopy_ok data0 (parent := st.greatest) (source := s) (o := org0 s)
          hends1 hc.data (by omega) (horg1 s hsB) (hdata _ _ hsG')
        obtain ⟨org2, horg2⟩ : ∃ f : Nat → Nat, f = fun n => if n = s1.greatest + 1 then org0 s else org1 n :=
          ⟨_, rfl⟩
        rw [← horg2] at e4
        have horg2a : ∀ n ≤ s1.greatest, org2 n = org1 n := by
          intro n hn
          rw [horg2]
          simp only
          rw [if_neg (by omega)]
        have horg2b : org2 (s1.greatest + 1) = org0 s := by rw [horg2]; simp
        have hends2 : EndsLe s2.edges s2.greatest := by
          intro e he
          rw [e2, List.mem_append, List.mem_singleton] at he
          rw [e3]
          rcases he with he | he
          · have := hends1 e he
            omega
          · subst he
            simp only
            omega
        obtain ⟨s3, org3, new3, f1, f2, f3⟩ := ih s s2 org2 hSs' (by omega) (by omega)
          (by
            intro n hSn
            have hn := hSB n hSn
            rw [e2, succOf_append, hc.edges, succOf_append, hfr n hSn,
              succOf_eq_nil (E := new1) (by intro e he; have := (hc.tails e he).1; omega),
              succOf_eq_nil (E := [_]) (by
                intro e he
                rw [List.mem_singleton] at he
                subst he
                simp only
                omega)]
            simp)
          (by omega)
          (by intro n hn; rw [horg2a n (by omega), horg1 n hn])
          hends2
          (by
            refine succOf_eq_nil ?_
            intro e he
            rw [e2, List.mem_append, List.mem_singleton] at he
            rcases he with he | he
            · have := hends1 e he
              omega
            · subst he
              simp only
              omega)
          (by rw [e3, horg2b]) e4
        have hmono3 := f2.mono
        have hsucc3 : ∀ n ≤ s1.greatest, n ≠ st.greatest → succOf s3.edges n = succOf s1.edges n := by
          intro n hn hne
          rw [f2.edges, succOf_append, e2, succOf_append,
            succOf_eq_nil (E := new3) (by intro e he; have := (f2.tails e he).1; omega),
            succOf_eq_nil (E := [_]) (by
                intro e he
                rw [List.mem_singleton] at he
                subst he
                simp only
                omega)]
          simp
        have horg3 : ∀ n ≤ s1.greatest, org3 n = org1 n := fun n hn => by
          rw [f2.org n (by omega), horg2a n hn]
        obtain ⟨s4, org4, new4, g1, g2, g3⟩ := ihs (done ++ [s]) s3 org3 (new1 ++ [(st.greatest, s1.greatest + 1)] ++ new3)
          (fun x hx => hss x (List.mem_cons_of_mem _ hx))
          { edges := by rw [f2.edges, e2, hc.edges]; simp
            mono := by omega
            tails := by
              intro e he
              simp only [List.mem_append, List.mem_singleton] at he
              rcases he with (he | he) | he
              · have := hc.tails e he
                omega
              · subst he
                simp only
                omega
              · have := f2.tails e he
                omega
            heads := by
              intro e he
              simp only [List.mem_append, List.mem_singleton] at he
              rcases he with (he | he) | he
              · have := hc.heads e he
                omega
              · subst he
                simp only
                omega
              · have := f2.heads e he
                omega
            headsAll := by
              intro n h1 h2
              rcases Nat.lt_trichotomy n (s1.greatest + 1) with h | h | h
              · obtain ⟨e, he, hh⟩ := hc.headsAll n h1 (by omega)
                exact ⟨e, by simp [he], hh⟩
              · exact ⟨(st.greatest, s1.greatest + 1), by simp, h.symm⟩
              · obtain ⟨e, he, hh⟩ := f2.headsAll n (by omega) h2
                exact ⟨e, by simp [he], hh⟩
            nodup := by
              rw [List.map_append, List.map_append, List.nodup_append, List.nodup_append]
              refine ⟨⟨hc.nodup, by simp, ?_⟩, f2.nodup, ?_⟩
              · intro a ha b hb
                simp only [List.map_cons, List.map_nil, List.mem_singleton] at hb
                obtain ⟨e, he, rfl⟩ := List.mem_map.1 ha
                have := (hc.heads e he).2
                omega
              · intro a ha b hb
                obtain ⟨e', he', rfl⟩ := List.mem_map.1 hb
                have h2 := (f2.heads e' he').1
                rw [List.mem_append] at ha
                rcases ha with ha | ha
                · obtain ⟨e, he, rfl⟩ := List.mem_map.1 ha
                  have := (hc.heads e he).2
                  omega
                · simp only [List.map_cons, List.map_nil, List.mem_singleton] at ha
                  omega
            org := by
              intro n hn
              rw [horg3 n (by omega), hc.org n hn]
            data := f2.data
            complete := by
              intro n h1 h2
              rcases Nat.lt_trichotomy n (s1.greatest + 1) with h | h | h
              · refine (hc.complete n h1 (by omega)).of_eq (hsucc3 n (by omega) (by omega)) (horg3 n (by omega)) ?_
                intro x hx
                exact horg3 x (hends1 _ (mem_succOf.1 hx)).2
              · rw [h, ← e3]
                exact f3
              · exact f2.complete n (by omega) h2 }
          (by
            have h1 : succOf s3.edges st.greatest = succOf s1.edges st.greatest ++ [s1.greatest + 1] := by
              rw [f2.edges, succOf_append, e2, succOf_append,
                succOf_eq_nil (E := new3) (by intro e he; have := (f2.tails e he).1; omega)]
              simp [succOf]
            rw [h1, List.map_append, List.map_append, ← hm]
            congr 1
            · apply List.map_congr_left
              intro x hx
              exact horg3 x (hends1 _ (mem_succOf.1 hx)).2
            · simp only [List.map_cons, List.map_nil]
              rw [f2.org _ (by omega), horg2b])
        refine ⟨s4, org4, new4, ?_, g2, ?_⟩
        · rw [List.foldlM_cons]
          simp only [e1, f1, bind, Except.bind] at g1 ⊢
          exact g1
        · rw [g3]; simp
    obtain ⟨st', org', new, h1, h2, h3⟩ := key (succOf T0 node) [] st org [] (fun s hs => hs)
      { edges := by simp
        mono := Nat.le_refl _
        tails := by simp
        heads := by simp
        headsAll := by intro n h1 h2; omega
        nodup := by simp
        org := fun _ _ => rfl
        data := hd
        complete := by intro n h1 h2; omega }
      (by rw [hnil]; rfl)
    refine ⟨st', org', new, ?_, h2, ?_⟩
    · unfold dupSucc
      rw [hfr node hS]
      exact h1
    · unfold Complete
      rw [h3, h2.org _ (Nat.le_refl _), hcur]
      rw [List.nil_append]
      exact hnode

/-- Invariant while the nodes of level `k` are attached to their predecessors: `done` are the nodes of
level `k` attached so far, `X n` the nodes expected below the node `n` of level `k - 1`. -/
structure LayInv (g0 : Nat) (st : TreeSt D) (org : Nat → Nat) (k : Nat) (done : List Nat)
    (X : Nat → List Nat) : Prop where
  ends : EndsLe st.edges st.greatest
  ge : g0 ≤ st.greatest
  orig : ∀ n ≤ g0, org n = n
  data : DataOk data0 st org
  nodup : (st.edges.map (·.2)).Nodup
  doneLv : ∀ n ∈ done, lv n = k
  headsOrig : ∀ e ∈ st.edges, e.2 ≤ g0 → (∃ c, (c, e.2) ∈ G) ∧ (k < lv e.2 ∨ e.2 ∈ done)
  headsDone : ∀ n, n ≤ g0 → (∃ c, (c, n) ∈ G) → (k < lv n ∨ n ∈ done) → ∃ e ∈ st.edges, e.2 = n
  headsCopies : ∀ n, g0 < n → n ≤ st.greatest → ∃ e ∈ st.edges, e.2 = n
  complete : ∀ n ≤ st.greatest, (g0 < n ∨ k ≤ lv n) → Complete G st.edges org n
  part : ∀ n ≤ g0, lv n + 1 = k → ((succOf st.edges n).map org).Perm (X n)
  low : ∀ n ≤ g0, lv n + 1 < k → succOf st.edges n = []

theorem copy_step (hdata : ∀ a b, (a, b) ∈ G → (data0 b).isSome)
    (hstep : ∀ a b, (a, b) ∈ G → lv b = lv a + 1) (hbd : ∀ a b, (a, b) ∈ G → lv b ≤ L)
    {g0 : Nat} {st : TreeSt D} {org : Nat → Nat} {k : Nat} {done : List Nat} {X : Nat → List Nat}
    (h : LayInv G lv data0 g0 st org k done X) {m q fuel : Nat} (hfuel : L < fuel + k)
    (hm : m ∈ done) (hm0 : m ≤ g0) (hq : (q, m) ∈ G) (hq0 : q ≤ g0) :
    ∃ st' org', (do let st ← addCopy st q m
                    dupSucc fuel m st) = .ok st' ∧
      LayInv G lv data0 g0 st' org' k done (fun n => if n = q then m :: X n else X n) := by
  have hmk := h.doneLv m hm
  have hge := h.ge
  have hqk : lv q + 1 = k := by rw [← hmk, hstep _ _ hq]
  obtain ⟨s2, e1, e2, e3, e4⟩ := addCopy_ok data0 (parent := q) (source := m) (o := m)
          h.ends h.data (by omega) (h.orig m hm0) (hdata _ _ hq)
  obtain ⟨org2, horg2⟩ : ∃ f : Nat → Nat, f = fun n => if n = st.greatest + 1 then m else org n :=
    ⟨_, rfl⟩
  rw [← horg2] at e4
  have horg2a : ∀ n ≤ st.greatest, org2 n = org n := by
    intro n hn
    rw [horg2]
    simp only
    rw [if_neg (by omega)]
  have horg2b : org2 (st.greatest + 1) = m := by rw [horg2]; simp
  have hends2 : EndsLe s2.edges s2.greatest := by
    intro e he
    rw [e2, List.mem_append, List.mem_singleton] at he
    rw [e3]
    rcases he with he | he
    · have := h.ends e he
      omega
    · subst he
      simp only
      omega
  obtain ⟨s3, org3, new, f1, f2, f3⟩ := dupSucc_spec G lv L data0 hdata hstep hbd st.edges org
    (fun n => n ≤ st.greatest ∧ (g0 < n ∨ k ≤ lv n)) st.greatest (fun n hn => hn.1)
    (fun n hn => h.complete n hn.1 hn.2)
    (by
      intro n hn s hs
      have hs' := mem_succOf.1 hs
      have h1 := (h.ends _ hs').2
      refine ⟨h1, ?_⟩
      by_cases hlt : g0 < s
      · exact .inl hlt
      · rcases (h.headsOrig _ hs' (by simpa using hlt)).2 with h2 | h2
        · right; simp only at h2; omega
        · right; have := h.doneLv _ h2; simp only at this; omega)
    fuel m s2 org2 ⟨by omega, by omega⟩ (by rw [h.orig m hm0]; exact hbd _ _ hq)
    (by rw [h.orig m hm0, hmk]; exact hfuel)
    (by
      intro n hn
      rw [e2, succOf_append, succOf_eq_nil (E := [_])]
      · simp
      · intro e he
        rw [List.mem_singleton] at he
        subst he
        simp only
        rintro rfl
        omega)
    (by omega) horg2a hends2
    (by
      refine succOf_eq_nil ?_
      intro e he
      rw [e2, List.mem_append, List.mem_singleton] at he
      rcases he with he | he
      · have := h.ends e he
        omega
      · subst he
        simp only
        omega)
    (by rw [e3, horg2b, h.orig m hm0]) e4
  have hmono := f2.mono
  have horg3 : ∀ n ≤ st.greatest, org3 n = org n := fun n hn => by
    rw [f2.org n (by omega), horg2a n hn]
  have hedges : s3.edges = st.edges ++ [(q, st.greatest + 1)] ++ new := by rw [f2.edges, e2]
  have hsucc : ∀ n ≤ st.greatest, n ≠ q → succOf s3.edges n = succOf st.edges n := by
    intro n hn hne
    rw [hedges, succOf_append, succOf_append,
      succOf_eq_nil (E := new) (by intro e he; have := (f2.tails e he).1; omega),
      succOf_eq_nil (E := [_]) (by
          intro e he
          rw [List.mem_singleton] at he
          subst he
          simp only
          omega)]
    simp
  have hsq : succOf s3.edges q = succOf st.edges q ++ [st.greatest + 1] := by
    rw [hedges, succOf_append, succOf_append,
      succOf_eq_nil (E := new) (by intro e he; have := (f2.tails e he).1; omega)]
    simp [succOf]
  have horgs : ∀ n, ∀ s ∈ succOf st.edges n, org3 s = org s := fun n s hs =>
    horg3 s (h.ends _ (mem_succOf.1 hs)).2
  refine ⟨s3, org3, ?_, ?_⟩
  · simp only [e1, f1, bind, Except.bind]
  · exact {
      ends := by
        intro e he
        rw [hedges] at he
        simp only [List.mem_append, List.mem_singleton] at he
        rcases he with (he | he) | he
        · have := h.ends e he
          omega
        · subst he
          simp only
          omega
        · have := f2.tails e he
          have := f2.heads e he
          omega
      ge := by omega
      orig := fun n hn => by rw [horg3 n (by omega), h.orig n hn]
      data := f2.data
      nodup := by
        rw [hedges, List.map_append, List.map_append, List.nodup_append, List.nodup_append]
        refine ⟨⟨h.nodup, by simp, ?_⟩, f2.nodup, ?_⟩
        · intro a ha b hb
          simp only [List.map_cons, List.map_nil, List.mem_singleton] at hb
          obtain ⟨e, he, rfl⟩ := List.mem_map.1 ha
          have := (h.ends e he).2
          omega
        · intro a ha b hb
          obtain ⟨e', he', rfl⟩ := List.mem_map.1 hb
          have h2 := (f2.heads e' he').1
          rw [List.mem_append] at ha
          rcases ha with ha | ha
          · obtain ⟨e, he, rfl⟩ := List.mem_map.1 ha
            have := (h.ends e he).2
            omega
          · simp only [List.map_cons, List.map_nil, List.mem_singleton] at ha
            omega
      doneLv := h.doneLv
      headsOrig := by
        intro e he hle
        rw [hedges] at he
        simp only [List.mem_append, List.mem_singleton] at he
        rcases he with (he | he) | he
        · exact h.headsOrig e he hle
        · subst he
          simp only at hle
          omega
        · have := f2.heads e he
          omega
      headsDone := by
        intro n h1 h2 h3
        obtain ⟨e, he, hh⟩ := h.headsDone n h1 h2 h3
        exact ⟨e, by rw [hedges]; simp [he], hh⟩
      headsCopies := by
        intro n h1 h2
        rcases Nat.lt_trichotomy n (st.greatest + 1) with h' | h' | h'
        · obtain ⟨e, he, hh⟩ := h.headsCopies n h1 (by omega)
          exact ⟨e, by rw [hedges]; simp [he], hh⟩
        · exact ⟨(q, st.greatest + 1), by rw [hedges]; simp, h'.symm⟩
        · obtain ⟨e, he, hh⟩ := f2.headsAll n (by omega) h2
          exact ⟨e, by rw [hedges]; simp [he], hh⟩
      complete := by
        intro n h1 h2
        rcases Nat.lt_trichotomy n (st.greatest + 1) with h' | h' | h'
        · refine (h.complete n (by omega) h2).of_eq (hsucc n (by omega) ?_) (horg3 n (by omega)) (horgs n)
          rintro rfl
          omega
        · rw [h', ← e3]
          exact f3
        · exact f2.complete n (by omega) h1
      part := by
        intro n h1 h2
        by_cases hn : n = q
        · subst hn
          rw [if_pos rfl, hsq, List.map_append, List.map_congr_left (horgs n)]
          simp only [List.map_cons, List.map_nil]
          rw [f2.org _ (by omega), horg2b]
          exact (List.perm_append_comm).trans ((h.part n h1 h2).cons m)
        · rw [if_neg hn, hsucc n (by omega) hn, List.map_congr_left (horgs n)]
          exact h.part n h1 h2
      low := by
        intro n h1 h2
        rw [hsucc n (by omega) (by rintro rfl; omega)]
        exact h.low n h1 h2 }

/-- The first predecessor keeps the node itself. -/
theorem first_step (hstep : ∀ a b, (a, b) ∈ G → lv b = lv a + 1)
    {g0 : Nat} {st : TreeSt D} {org : Nat → Nat} {k : Nat} {done : List Nat} {X : Nat → List Nat}
    (h : LayInv G lv data0 g0 st org k done X) {m q : Nat} (hmk : lv m = k)
    (hm : m ∉ done) (hm0 : m ≤ g0) (hq : (q, m) ∈ G) (hq0 : q ≤ g0) :
    LayInv G lv data0 g0 { st with edges := addEdge st.edges q m } org k (m :: done)
      (fun n => if n = q then m :: X n else X n) := by
  have hge := h.ge
  have hqk : lv q + 1 = k := by rw [← hmk, hstep _ _ hq]
  have hfresh : ∀ e ∈ st.edges, e.2 ≠ m := by
    rintro e he rfl
    rcases (h.headsOrig e he hm0).2 with h1 | h1
    · omega
    · exact hm h1
  have hedges : addEdge st.edges q m = st.edges ++ [(q, m)] := by
    unfold addEdge
    rw [if_neg]
    simp only [List.contains_iff_mem]
    intro h'
    exact hfresh _ h' rfl
  rw [hedges]
  have hsucc : ∀ n, n ≠ q → succOf (st.edges ++ [(q, m)]) n = succOf st.edges n := by
    intro n hne
    rw [succOf_append, succOf_eq_nil (E := [_]) (by
          intro e he
          rw [List.mem_singleton] at he
          subst he
          simp only
          omega)]
    simp
  have hsq : succOf (st.edges ++ [(q, m)]) q = succOf st.edges q ++ [m] := by
    rw [succOf_append]
    simp [succOf]
  exact {
    ends := by
      intro e he
      simp only [List.mem_append, List.mem_singleton] at he
      rcases he with he | he
      · exact h.ends e he
      · subst he
        simp only
        omega
    ge := h.ge
    orig := h.orig
    data := h.data
    nodup := by
      simp only
      rw [List.map_append, List.nodup_append]
      refine ⟨h.nodup, by simp, ?_⟩
      intro a ha b hb
      simp only [List.map_cons, List.map_nil, List.mem_singleton] at hb
      obtain ⟨e, he, rfl⟩ := List.mem_map.1 ha
      rw [hb]
      exact hfresh e he
    doneLv := by
      intro n hn
      rcases List.mem_cons.1 hn with rfl | hn
      · exact hmk
      · exact h.doneLv n hn
    headsOrig := by
      intro e he hle
      simp only [List.mem_append, List.mem_singleton] at he
      rcases he with he | he
      · obtain ⟨h1, h2⟩ := h.headsOrig e he hle
        refine ⟨h1, ?_⟩
        rcases h2 with h2 | h2
        · exact .inl h2
        · exact .inr (List.mem_cons_of_mem _ h2)
      · subst he
        exact ⟨⟨q, hq⟩, .inr List.mem_cons_self⟩
    headsDone := by
      intro n h1 h2 h3
      by_cases hn : n = m
      · exact ⟨(q, m), by simp, hn.symm⟩
      · obtain ⟨e, he, hh⟩ := h.headsDone n h1 h2 (by
          rcases h3 with h3 | h3
          · exact .inl h3
          · exact .inr ((List.mem_cons.1 h3).resolve_left hn))
        exact ⟨e, by simp [he], hh⟩
    headsCopies := by
      intro n h1 h2
      obtain ⟨e, he, hh⟩ := h.headsCopies n h1 h2
      exact ⟨e, by simp [he], hh⟩
    complete := by
      intro n h1 h2
      refine (h.complete n h1 h2).of_eq (hsucc n ?_) rfl (fun _ _ => rfl)
      rintro rfl
      omega
    part := by
      intro n h1 h2
      by_cases hn : n = q
      · subst hn
        simp only
        rw [if_pos trivial, hsq, List.map_append]
        simp only [List.map_cons, List.map_nil]
        rw [h.orig m hm0]
        exact (List.perm_append_comm).trans ((h.part n h1 h2).cons m)
      · simp only
        rw [if_neg hn, hsucc n hn]
        exact h.part n h1 h2
    low := by
      intro n h1 h2
      simp only
      rw [hsucc n (by rintro rfl; omega)]
      exact h.low n h1 h2 }

theorem LayInv.congr {g0 : Nat} {st : TreeSt D} {org : Nat → Nat} {k : Nat} {done : List Nat}
    {X X' : Nat → List Nat} (h : LayInv G lv data0 g0 st org k done X)
    (hX : ∀ n, lv n + 1 = k → (X n).Perm (X' n)) : LayInv G lv data0 g0 st org k done X' :=
  { h with part := fun n h1 h2 => (h.part n h1 h2).trans (hX n h2) }

theorem dupCommon_spec (hdata : ∀ a b, (a, b) ∈ G → (data0 b).isSome)
    (hstep : ∀ a b, (a, b) ∈ G → lv b = lv a + 1) (hbd : ∀ a b, (a, b) ∈ G → lv b ≤ L)
    {g0 : Nat} (hg0 : EndsLe G g0) {st : TreeSt D} {org : Nat → Nat} {k : Nat} {done : List Nat}
    {X : Nat → List Nat} (h : LayInv G lv data0 g0 st org k done X) {m fuel : Nat}
    (hfuel : L < fuel + k) (hmk : lv m = k) (hm : m ∉ done) (preds : List Nat) (hne : preds ≠ [])
    (hnd : preds.Nodup) (hp : ∀ q ∈ preds, (q, m) ∈ G) :
    ∃ st' org', dupCommon fuel m preds st = .ok st' ∧
      LayInv G lv data0 g0 st' org' k (m :: done) (fun n => if n ∈ preds then m :: X n else X n) := by
  cases preds with
  | nil => exact absurd rfl hne
  | cons p ps =>
    have hpm := hp p List.mem_cons_self
    have hm0 := (hg0 _ hpm).2
    have key : ∀ (ps : List Nat) (st : TreeSt D) (org : Nat → Nat) (X : Nat → List Nat), ps.Nodup →
        (∀ q ∈ ps, (q, m) ∈ G) → LayInv G lv data0 g0 st org k (m :: done) X →
        ∃ st' org', ps.foldlM (fun st q => do
          let st ← addCopy st q m
          dupSucc fuel m st) st = .ok st' ∧
        LayInv G lv data0 g0 st' org' k (m :: done) (fun n => if n ∈ ps then m :: X n else X n) := by
      intro ps
      induction ps with
      | nil =>
        intro st org X _ _ hI
        exact ⟨st, org, rfl, hI.congr _ _ _ (fun n _ => by simp)⟩
      | cons q ps ih =>
        intro st org X hn hps hI
        rw [List.nodup_cons] at hn
        have hqm := hps q List.mem_cons_self
        obtain ⟨s1, o1, h1, h2⟩ := copy_step G lv L data0 hdata hstep hbd hI hfuel List.mem_cons_self hm0 hqm
          (hg0 _ hqm).1
        obtain ⟨s2, o2, h3, h4⟩ := ih s1 o1 _ hn.2 (fun x hx => hps x (List.mem_cons_of_mem _ hx)) h2
        refine ⟨s2, o2, ?_, h4.congr _ _ _ ?_⟩
        · rw [List.foldlM_cons, h1]
          exact h3
        · intro n _
          by_cases e : n = q
          · subst e
            simp [hn.1]
          · simp [e]
    rw [List.nodup_cons] at hnd
    obtain ⟨s2, o2, h3, h4⟩ := key ps _ org _ hnd.2 (fun x hx => hp x (List.mem_cons_of_mem _ hx))
      (first_step G lv data0 hstep h hmk hm hm0 hpm (hg0 _ hpm).1)
    refine ⟨s2, o2, h3, h4.congr _ _ _ ?_⟩
    intro n _
    by_cases e : n = p
    · subst e
      simp [hnd.1]
    · simp [e]

theorem layerLoop_spec (ord : List Nat → List Nat) (hord : SetOrder ord) (hGn : G.Nodup)
    (hdata : ∀ a b, (a, b) ∈ G → (data0 b).isSome)
    (hstep : ∀ a b, (a, b) ∈ G → lv b = lv a + 1) (hbd : ∀ a b, (a, b) ∈ G → lv b ≤ L)
    {g0 : Nat} (hg0 : EndsLe G g0) {k fuel : Nat} (hfuel : L < fuel + k) :
    ∀ (ns next done : List Nat) (st : TreeSt D) (org : Nat → Nat),
    LayInv G lv data0 g0 st org k done (fun n => (succOf G n).filter (fun b => decide (b ∈ done))) →
    (∀ n ∈ ns, lv n = k ∧ n ∉ done ∧ ∃ c, (c, n) ∈ G) → ns.Nodup →
    ∃ next' done' st' org', layerLoop ord G fuel ns next st = .ok (next', st') ∧
      (∀ x, x ∈ next' ↔ x ∈ next ∨ ∃ n ∈ ns, (x, n) ∈ G) ∧
      (∀ x, x ∈ done' ↔ x ∈ ns ∨ x ∈ done) ∧
      LayInv G lv data0 g0 st' org' k done' (fun n => (succOf G n).filter (fun b => decide (b ∈ done'))) := by
  intro ns
  induction ns with
  | nil =>
    intro next done st org hI _ _
    exact ⟨next, done, st, org, rfl, by simp, by simp, hI⟩
  | cons n ns ih =>
    intro next done st org hI hns hnd
    rw [List.nodup_cons] at hnd
    obtain ⟨hnk, hnd0, c, hc⟩ := hns n List.mem_cons_self
    have hne : ord (predOf G n) ≠ [] := by
      intro h
      have : c ∈ ord (predOf G n) := ((hord _).2 c).2 (mem_predOf.2 hc)
      rw [h] at this
      cases this
    have hnext : next ++ predOf G n ≠ [] := by
      intro h
      have : c ∈ next ++ predOf G n := List.mem_append.2 (.inr (mem_predOf.2 hc))
      rw [h] at this
      cases this
    obtain ⟨s1, o1, h1, h2⟩ := dupCommon_spec G lv L data0 hdata hstep hbd hg0 hI hfuel hnk hnd0
      (ord (predOf G n)) hne (hord _).1 (fun q hq => mem_predOf.1 (((hord _).2 q).1 hq))
    have h3 : LayInv G lv data0 g0 s1 o1 k (n :: done)
        (fun x => (succOf G x).filter (fun b => decide (b ∈ n :: done))) := by
      refine h2.congr _ _ _ ?_
      intro x _
      have hx : x ∈ ord (predOf G n) ↔ n ∈ succOf G x := by
        rw [(hord _).2 x, mem_predOf, mem_succOf]
      have hnds := succOf_nodup hGn x
      have hf : n ∉ (succOf G x).filter (fun b => decide (b ∈ done)) := by
        simp [hnd0]
      refine (List.perm_ext_iff_of_nodup ?_ (hnds.filter _)).2 ?_
      · split
        · exact List.nodup_cons.2 ⟨hf, hnds.filter _⟩
        · exact hnds.filter _
      · intro a
        by_cases e : x ∈ ord (predOf G n)
        · have := hx.1 e
          simp only [e, if_true, List.mem_cons, List.mem_filter, decide_eq_true_eq]
          constructor
          · rintro (rfl | h)
            · exact ⟨this, .inl rfl⟩
            · exact ⟨h.1, .inr h.2⟩
          · rintro ⟨h, h' | h'⟩
            · exact .inl h'
            · exact .inr ⟨h, h'⟩
        · simp only [e, if_false, List.mem_filter, decide_eq_true_eq, List.mem_cons]
          constructor
          · rintro h
            exact ⟨h.1, .inr h.2⟩
          · rintro ⟨h, h' | h'⟩
            · subst h'
              exact absurd (hx.2 h) e
            · exact ⟨h, h'⟩
    obtain ⟨next', done', s2, o2, g1, g2, g3, g4⟩ := ih (next ++ predOf G n) (n :: done) s1 o1 h3
      (by
        intro x hx
        obtain ⟨a1, a2, a3⟩ := hns x (List.mem_cons_of_mem _ hx)
        refine ⟨a1, ?_, a3⟩
        rw [List.mem_cons]
        rintro (rfl | h)
        · exact hnd.1 hx
        · exact a2 h) hnd.2
    refine ⟨next', done', s2, o2, ?_, ?_, ?_, g4⟩
    · unfold layerLoop
      simp only [hnext, if_false, h1, bind, Except.bind]
      exact g1
    · intro x
      rw [g2 x, List.mem_append, mem_predOf]
      simp only [List.mem_cons, exists_eq_or_imp]
      tauto
    · intro x
      rw [g3 x]
      simp only [List.mem_cons]
      tauto

theorem convertLoop_spec (ord : List Nat → List Nat) (hord : SetOrder ord) {root : Nat}
    (hL : Layered G lv L root)
    (hdata : ∀ a b, (a, b) ∈ G → (data0 b).isSome)
    {g0 : Nat} (hg0 : EndsLe G g0) {fuel : Nat} (hfuel : L < fuel) :
    ∀ (k iter : Nat) (layer : List Nat) (st : TreeSt D) (org : Nat → Nat), k ≤ L → k < iter →
    LayInv G lv data0 g0 st org k [] (fun _ => []) →
    (∀ n, n ∈ layer ↔ IsNode G n ∧ lv n = k) → layer ≠ [] →
    ∃ st' org', convertLoop ord G fuel iter layer st = .ok st' ∧
      LayInv G lv data0 g0 st' org' 0 [] (fun _ => []) := by
  intro k
  induction k with
  | zero =>
    intro iter layer st org _ hit hI hlay hne
    cases iter with
    | zero => omega
    | succ iter =>
      refine ⟨st, org, ?_, hI⟩
      have hloop : layerLoop ord G fuel (ord layer) [] st = .ok ([], st) := by
        cases ho : ord layer with
        | nil => rfl
        | cons n ns =>
          have hn : n ∈ layer := ((hord layer).2 n).1 (by rw [ho]; exact List.mem_cons_self)
          have hp : predOf G n = [] := by
            rw [List.eq_nil_iff_forall_not_mem]
            intro a ha
            have h1 := hL.step _ _ (mem_predOf.1 ha)
            have h2 := ((hlay n).1 hn).2
            omega
          unfold layerLoop
          simp [hp]
      unfold convertLoop
      simp only [hloop, bind, Except.bind, if_true]
      rfl
  | succ k ih =>
    intro iter layer st org hk hit hI hlay hne
    cases iter with
    | zero => omega
    | succ iter =>
      obtain ⟨next, done, s1, o1, h1, h2, h3, h4⟩ := layerLoop_spec G lv L data0 ord hord hL.nodup hdata
        hL.step hL.bounded hg0 (k := k + 1) (fuel := fuel) (by omega) (ord layer) [] [] st org
        (hI.congr _ _ _ (fun n _ => by simp))
        (by
          intro n hn
          rw [(hord _).2, hlay] at hn
          refine ⟨hn.2, by simp, ?_⟩
          obtain ⟨⟨⟨a, b⟩, he, hab⟩, hlv⟩ := hn
          simp only at hab
          rcases hab with rfl | rfl
          · exact hL.hasPred _ _ he (by omega)
          · exact ⟨a, he⟩) (hord _).1
      have hnextm : ∀ n, n ∈ next ↔ IsNode G n ∧ lv n = k := by
        intro x
        rw [h2 x]
        constructor
        · rintro (h | ⟨n, hn, hx⟩)
          · cases h
          · rw [(hord _).2, hlay] at hn
            have := hL.step _ _ hx
            exact ⟨⟨_, hx, .inl rfl⟩, by omega⟩
        · rintro ⟨⟨⟨a, b⟩, he, hab⟩, hlv⟩
          right
          simp only at hab
          have hsucc : ∃ c, (x, c) ∈ G := by
            rcases hab with rfl | rfl
            · exact ⟨b, he⟩
            · exact hL.hasSucc _ _ he (by omega)
          obtain ⟨c, hc⟩ := hsucc
          refine ⟨c, ?_, hc⟩
          rw [(hord _).2, hlay]
          have := hL.step _ _ hc
          exact ⟨⟨_, hc, .inr rfl⟩, by omega⟩
      have hnextne : next ≠ [] := by
        obtain ⟨n, hn⟩ := List.exists_mem_of_ne_nil _ hne
        obtain ⟨⟨⟨a, b⟩, he, hab⟩, hlv⟩ := (hlay n).1 hn
        simp only at hab
        have hpr : ∃ c, (c, n) ∈ G := by
          rcases hab with rfl | rfl
          · exact hL.hasPred _ _ he (by omega)
          · exact ⟨a, he⟩
        obtain ⟨c, hc⟩ := hpr
        intro h
        have : c ∈ next := (h2 c).2 (.inr ⟨n, ((hord _).2 n).2 hn, hc⟩)
        rw [h] at this
        cases this
      have hdone : ∀ n, n ∈ done ↔ IsNode G n ∧ lv n = k + 1 := by
        intro n
        rw [h3 n, (hord _).2, hlay]
        simp
      obtain ⟨s2, o2, g1, g2⟩ := ih iter next s1 o1 (by omega) (by omega)
        { ends := h4.ends
          ge := h4.ge
          orig := h4.orig
          data := h4.data
          nodup := h4.nodup
          doneLv := by simp
          headsOrig := by
            intro e he hle
            obtain ⟨a1, a2⟩ := h4.headsOrig e he hle
            refine ⟨a1, .inl ?_⟩
            rcases a2 with a2 | a2
            · omega
            · have := h4.doneLv _ a2
              omega
          headsDone := by
            intro n h1 h2 h3
            refine h4.headsDone n h1 h2 ?_
            rcases h3 with h3 | h3
            · by_cases e : lv n = k + 1
              · right
                obtain ⟨c, hc⟩ := h2
                exact (hdone n).2 ⟨⟨_, hc, .inr rfl⟩, e⟩
              · left; omega
            · cases h3
          headsCopies := h4.headsCopies
          complete := by
            intro n h1 h2
            by_cases e : g0 < n ∨ k + 1 ≤ lv n
            · exact h4.complete n h1 e
            · have hn0 : n ≤ g0 := by omega
              have := h4.part n hn0 (by omega)
              unfold Complete
              rw [h4.orig n hn0]
              refine this.trans ?_
              rw [List.filter_eq_self.2]
              intro b hb
              have hb' := mem_succOf.1 hb
              have := hL.step _ _ hb'
              rw [decide_eq_true_eq, hdone]
              exact ⟨⟨_, hb', .inr rfl⟩, by omega⟩
          part := by
            intro n h1 h2
            rw [h4.low n h1 (by omega)]
            exact List.Perm.refl _
          low := by
            intro n h1 h2
            exact h4.low n h1 (by omega) }
        hnextm hnextne
      refine ⟨s2, o2, ?_, g2⟩
      unfold convertLoop
      simp only [h1, bind, Except.bind, hnextne, if_false]
      exact g1

end

/-! ## first node, greatest node, last nodes -/

theorem nodesOf_fold_head (E : List (Nat × Nat)) (acc : List Nat) (h : acc ≠ []) :
    (E.foldl (fun acc e =>
    let acc := if acc.contains e.1 then acc else acc ++ [e.1]
    if acc.contains e.2 then acc else acc ++ [e.2]) acc).head? = acc.head? := by
  induction E generalizing acc with
  | nil => rfl
  | cons e E ih =>
    rw [List.foldl_cons, ih]
    · cases acc with
      | nil => exact absurd rfl h
      | cons a as =>
        simp only
        split <;> split <;> simp
    · simp only
      split <;> split <;> simp [h]

theorem nodesOf_fold_mem (E : List (Nat × Nat)) (acc : List Nat) (x : Nat) :
    x ∈ (E.foldl (fun acc e =>
    let acc := if acc.contains e.1 then acc else acc ++ [e.1]
    if acc.contains e.2 then acc else acc ++ [e.2]) acc) ↔ x ∈ acc ∨ IsNode E x := by
  induction E generalizing acc with
  | nil => simp [IsNode]
  | cons e E ih =>
    rw [List.foldl_cons, ih]
    have h1 : ∀ (l : List Nat) (y : Nat), x ∈ (if l.contains y then l else l ++ [y]) ↔ x ∈ l ∨ y = x := by
      intro l y
      split
      · rename_i hc
        rw [List.contains_iff_mem] at hc
        constructor
        · exact .inl
        · rintro (h | rfl)
          · exact h
          · exact hc
      · simp [eq_comm]
    have h2 : IsNode (e :: E) x ↔ (e.1 = x ∨ e.2 = x) ∨ IsNode E x := by
      unfold IsNode
      simp
    simp only [h1]
    rw [h2]
    tauto

theorem nodesOf_fold_nodup (E : List (Nat × Nat)) (acc : List Nat) (h : acc.Nodup) :
    (E.foldl (fun acc e =>
    let acc := if acc.contains e.1 then acc else acc ++ [e.1]
    if acc.contains e.2 then acc else acc ++ [e.2]) acc).Nodup := by
  induction E generalizing acc with
  | nil => exact h
  | cons e E ih =>
    rw [List.foldl_cons]
    apply ih
    have h1 : ∀ (l : List Nat) (y : Nat), l.Nodup → (if l.contains y then l else l ++ [y]).Nodup := by
      intro l y hl
      split
      · exact hl
      · rename_i hc
        rw [List.contains_iff_mem] at hc
        exact List.nodup_append.2 ⟨hl, by simp, by
          intro a ha b hb
          rw [List.mem_singleton] at hb
          rintro rfl
          subst hb
          exact hc ha⟩
    exact h1 _ _ (h1 _ _ h)

theorem mem_nodesOf (E : List (Nat × Nat)) (x : Nat) : x ∈ nodesOf E ↔ IsNode E x := by
  unfold nodesOf
  rw [nodesOf_fold_mem]
  simp

theorem nodesOf_nodup (E : List (Nat × Nat)) : (nodesOf E).Nodup :=
  nodesOf_fold_nodup E [] List.nodup_nil

theorem nodesOf_head (E : List (Nat × Nat)) : (nodesOf E).head? = E.head?.map (·.1) := by
  cases E with
  | nil => rfl
  | cons e E =>
    unfold nodesOf
    rw [List.foldl_cons, nodesOf_fold_head]
    · simp only [List.contains_nil, Bool.false_eq_true, if_false, List.nil_append]
      split <;> simp
    · simp only [List.contains_nil, Bool.false_eq_true, if_false, List.nil_append]
      split <;> simp

/-- there is a path from `n` to `x` -/
def Reach (E : List (Nat × Nat)) (n x : Nat) : Prop := ∃ p, PathFrom E n p ∧ p.getLast? = some x

theorem Reach.refl (E : List (Nat × Nat)) (n : Nat) : Reach E n n := ⟨[n], .single n, rfl⟩

theorem PathFrom.ne_nil {E : List (Nat × Nat)} {n : Nat} {p : List Nat} (h : PathFrom E n p) : p ≠ [] := by
  cases h <;> simp

theorem PathFrom.head {E : List (Nat × Nat)} {n : Nat} {p : List Nat} (h : PathFrom E n p) :
    p.head? = some n := by
  cases h <;> rfl

theorem Reach.step {E : List (Nat × Nat)} {n m x : Nat} (h : (n, m) ∈ E) (hr : Reach E m x) : Reach E n x := by
  obtain ⟨p, h1, h2⟩ := hr
  refine ⟨n :: p, .step h h1, ?_⟩
  rw [List.getLast?_cons, h2]
  rfl

theorem reach_cases {E : List (Nat × Nat)} {n x : Nat} :
    Reach E n x ↔ n = x ∨ ∃ m, (n, m) ∈ E ∧ Reach E m x := by
  constructor
  · rintro ⟨p, h1, h2⟩
    cases h1 with
    | single =>
      left
      simpa using h2
    | step he hp =>
      right
      refine ⟨_, he, _, hp, ?_⟩
      rw [List.getLast?_cons] at h2
      cases hl : List.getLast? _ with
      | none => exact absurd (List.getLast?_eq_none_iff.1 hl) hp.ne_nil
      | some y => rw [hl] at h2; simpa using h2
  · rintro (rfl | ⟨m, h1, h2⟩)
    · exact Reach.refl _ _
    · exact h2.step h1

theorem Reach.snoc {E : List (Nat × Nat)} {n m x : Nat} (hr : Reach E n m) (h : (m, x) ∈ E) : Reach E n x := by
  obtain ⟨p, h1, h2⟩ := hr
  induction h1 with
  | single n =>
    have : n = m := by simpa using h2
    subst this
    exact (Reach.refl _ _).step h
  | step he hp ih =>
    refine (ih ?_).step he
    rw [List.getLast?_cons] at h2
    cases hl : List.getLast? _ with
    | none => exact absurd (List.getLast?_eq_none_iff.1 hl) hp.ne_nil
    | some y => rw [hl] at h2; simpa using h2

section
variable {G : List (Nat × Nat)} {lv : Nat → Nat} {L root : Nat}

theorem Layered.reached (hL : Layered G lv L root) : ∀ (k n : Nat), IsNode G n → lv n = k → Reach G root n := by
  intro k
  induction k with
  | zero =>
    rintro n ⟨⟨a, b⟩, he, hab⟩ hlv
    simp only at hab
    rcases hab with rfl | rfl
    · rw [hL.rootOnly _ _ he hlv]
      exact Reach.refl _ _
    · have := hL.step _ _ he
      omega
  | succ k ih =>
    rintro n ⟨⟨a, b⟩, he, hab⟩ hlv
    simp only at hab
    have : ∃ c, (c, n) ∈ G := by
      rcases hab with rfl | rfl
      · exact hL.hasPred _ _ he (by omega)
      · exact ⟨a, he⟩
    obtain ⟨c, hc⟩ := this
    have := hL.step _ _ hc
    exact (ih c ⟨_, hc, .inl rfl⟩ (by omega)).snoc hc

theorem Layered.level_le (hL : Layered G lv L root) {n : Nat} (h : IsNode G n) : lv n ≤ L := by
  obtain ⟨⟨a, b⟩, he, hab⟩ := h
  simp only at hab
  have h1 := hL.bounded _ _ he
  have h2 := hL.step _ _ he
  rcases hab with rfl | rfl <;> omega

theorem Layered.root_edge (hL : Layered G lv L root) : ∃ b, (root, b) ∈ G := by
  have := hL.rootFirst
  cases G with
  | nil => simp at this
  | cons e G =>
    have : e.1 = root := by simpa using this
    subst this
    exact ⟨e.2, List.mem_cons_self⟩

theorem Layered.leaf_iff (hL : Layered G lv L root) {n : Nat} (h : IsNode G n) : IsLeaf G n ↔ lv n = L := by
  constructor
  · intro hl
    obtain ⟨⟨a, b⟩, he, hab⟩ := h
    simp only at hab
    rcases hab with rfl | rfl
    · exact absurd he (hl b)
    · by_contra hne
      have := hL.bounded _ _ he
      obtain ⟨c, hc⟩ := hL.hasSucc _ _ he (by omega)
      exact hl c hc
  · intro hl b hb
    have := hL.step _ _ hb
    have := hL.bounded _ _ hb
    omega

theorem Layered.exists_level (hL : Layered G lv L root) : ∀ k, k ≤ L → ∃ n, IsNode G n ∧ lv n = k := by
  intro k
  induction k with
  | zero =>
    intro _
    obtain ⟨b, hb⟩ := hL.root_edge
    exact ⟨root, ⟨_, hb, .inl rfl⟩, hL.rootLv⟩
  | succ k ih =>
    intro hk
    obtain ⟨n, hn, hlv⟩ := ih (by omega)
    have : ¬ IsLeaf G n := fun h => by
      have := (hL.leaf_iff hn).1 h
      omega
    unfold IsLeaf at this
    rw [not_forall] at this
    obtain ⟨b, hb⟩ := this
    rw [not_not] at hb
    have := hL.step _ _ hb
    exact ⟨b, ⟨_, hb, .inr rfl⟩, by omega⟩

theorem Layered.firstNode (hL : Layered G lv L root) : firstNode G = .ok root := by
  have := nodesOf_head G
  rw [hL.rootFirst] at this
  unfold Pyensys.firstNode
  cases h : nodesOf G with
  | nil => rw [h] at this; cases this
  | cons a as =>
    rw [h] at this
    injection this with this
    rw [this]

theorem lastNodes_spec (hL : Layered G lv L root) : ∀ (fuel n : Nat) (acc : List Nat), lv n ≤ L →
    L < fuel + lv n → ∃ acc', lastNodes G fuel n acc = .ok acc' ∧
      ∀ x, x ∈ acc' ↔ x ∈ acc ∨ (Reach G n x ∧ IsLeaf G x) := by
  intro fuel
  induction fuel with
  | zero => intro n acc h1 h2; omega
  | succ fuel ih =>
    intro n acc h1 h2
    unfold lastNodes
    cases hs : succOf G n with
    | nil =>
      refine ⟨_, rfl, ?_⟩
      intro x
      have hleaf : IsLeaf G n := by
        intro b hb
        rw [← mem_succOf, hs] at hb
        cases hb
      rw [List.mem_append, List.mem_singleton, reach_cases]
      constructor
      · rintro (h | rfl)
        · exact .inl h
        · exact .inr ⟨.inl rfl, hleaf⟩
      · rintro (h | ⟨rfl | ⟨m, hm, _⟩, _⟩)
        · exact .inl h
        · exact .inr rfl
        · exact absurd hm (hleaf m)
    | cons s ss =>
      simp only
      rw [← hs]
      have key : ∀ (l : List Nat) (acc : List Nat), (∀ m ∈ l, (n, m) ∈ G) →
          ∃ acc', l.foldlM (fun acc n => lastNodes G fuel n acc) acc = .ok acc' ∧
          ∀ x, x ∈ acc' ↔ x ∈ acc ∨ ∃ m ∈ l, Reach G m x ∧ IsLeaf G x := by
        intro l
        induction l with
        | nil => intro acc _; exact ⟨acc, rfl, by simp⟩
        | cons m l ihl =>
          intro acc hl
          have hm := hl m List.mem_cons_self
          have := hL.step _ _ hm
          have := hL.bounded _ _ hm
          obtain ⟨a1, e1, e2⟩ := ih m acc (by omega) (by omega)
          obtain ⟨a2, e3, e4⟩ := ihl a1 (fun x hx => hl x (List.mem_cons_of_mem _ hx))
          refine ⟨a2, ?_, ?_⟩
          · rw [List.foldlM_cons, e1]
            exact e3
          · intro x
            rw [e4 x, e2 x]
            simp only [List.mem_cons, exists_eq_or_imp]
            tauto
      obtain ⟨acc', e1, e2⟩ := key (succOf G n) acc (fun m hm => mem_succOf.1 hm)
      refine ⟨acc', e1, ?_⟩
      intro x
      rw [e2 x, reach_cases]
      have hnl : ¬ IsLeaf G n := fun h => h s (by rw [← mem_succOf, hs]; exact List.mem_cons_self)
      constructor
      · rintro (h | ⟨m, hm, h1, h2⟩)
        · exact .inl h
        · exact .inr ⟨.inr ⟨m, mem_succOf.1 hm, h1⟩, h2⟩
      · rintro (h | ⟨rfl | ⟨m, hm, h1⟩, h2⟩)
        · exact .inl h
        · exact absurd h2 hnl
        · exact .inr ⟨m, mem_succOf.2 hm, h1, h2⟩

theorem searchGreatest_spec (hL : Layered G lv L root) : ∀ (fuel n g : Nat), lv n ≤ L →
    L < fuel + lv n → n ≤ g → ∃ g', searchGreatest G fuel n g = .ok g' ∧ g ≤ g' ∧
      ∀ x, Reach G n x → x ≤ g' := by
  intro fuel
  induction fuel with
  | zero => intro n acc h1 h2; omega
  | succ fuel ih =>
    intro n g h1 h2 hng
    unfold searchGreatest
    have key : ∀ (l : List Nat) (g : Nat), (∀ m ∈ l, (n, m) ∈ G) →
          ∃ g', l.foldlM (fun g n => searchGreatest G fuel n (if n > g then n else g)) g = .ok g' ∧
          g ≤ g' ∧ ∀ m ∈ l, ∀ x, Reach G m x → x ≤ g' := by
      intro l
      induction l with
      | nil => intro g _; exact ⟨g, rfl, Nat.le_refl _, by simp⟩
      | cons m l ihl =>
        intro g hl
        have hm := hl m List.mem_cons_self
        have := hL.step _ _ hm
        have := hL.bounded _ _ hm
        obtain ⟨a1, e1, e2, e2'⟩ := ih m (if m > g then m else g) (by omega) (by omega) (by split <;> omega)
        obtain ⟨a2, e3, e4, e5⟩ := ihl a1 (fun x hx => hl x (List.mem_cons_of_mem _ hx))
        refine ⟨a2, ?_, ?_, ?_⟩
        · rw [List.foldlM_cons, e1]
          exact e3
        · have : g ≤ a1 := by
            refine Nat.le_trans ?_ e2
            split <;> omega
          omega
        · intro y hy x hx
          rcases List.mem_cons.1 hy with rfl | hy
          · exact Nat.le_trans (e2' x hx) e4
          · exact e5 y hy x hx
    obtain ⟨g', e1, e2, e3⟩ := key (succOf G n) g (fun m hm => mem_succOf.1 hm)
    refine ⟨g', e1, e2, ?_⟩
    intro x hx
    rcases reach_cases.1 hx with rfl | ⟨m, hm, hr⟩
    · omega
    · exact e3 m (mem_succOf.2 hm) x hr

end

/-! ## unfolding -/

theorem unfold_lift {G T : List (Nat × Nat)} {org : Nat → Nat} (hGn : G.Nodup) {S : Nat → Prop}
    (hS : ∀ n, S n → Complete G T org n) (hSs : ∀ n, S n → ∀ s ∈ succOf T n, S s) {x : Nat} {p : List Nat}
    (hp : PathFrom G x p) : ∀ n, S n → org n = x →
      ∃ q, (PathFrom T n q ∧ q.map org = p) ∧ ∀ q', PathFrom T n q' → q'.map org = p → q' = q := by
  induction hp with
  | single x =>
    rintro n hn rfl
    refine ⟨[n], ⟨.single n, rfl⟩, ?_⟩
    intro q' h1 h2
    cases h1 with
    | single => rfl
    | step he hp =>
      rw [List.map_cons] at h2
      injection h2 with _ h2
      rw [List.map_eq_nil_iff] at h2
      exact absurd h2 hp.ne_nil
  | @step x y p he hp ih =>
    rintro n hn rfl
    have hc := hS n hn
    have hy : y ∈ (succOf T n).map org := hc.mem_iff.2 (mem_succOf.2 he)
    obtain ⟨m, hm, rfl⟩ := List.mem_map.1 hy
    obtain ⟨q, ⟨h1, h2⟩, h3⟩ := ih m (hSs n hn m hm) rfl
    refine ⟨n :: q, ⟨.step (mem_succOf.1 hm) h1, by rw [List.map_cons, h2]⟩, ?_⟩
    intro q' g1 g2
    cases g1 with
    | single =>
      rw [List.map_cons, List.map_nil] at g2
      injection g2 with _ g2
      exact absurd g2.symm hp.ne_nil
    | @step _ m' q'' he' hp' =>
      rw [List.map_cons] at g2
      injection g2 with _ g2
      have hm' := mem_succOf.2 he'
      have e1 := hp'.head
      have e2 := hp.head
      rw [← g2, List.head?_map, e1] at e2
      injection e2 with e2
      have hnd : ((succOf T n).map org).Nodup := hc.nodup_iff.2 (succOf_nodup hGn _)
      have : m' = m := List.inj_on_of_nodup_map hnd hm' hm e2
      subst this
      rw [h3 q'' hp' g2]

theorem unfold_down {G T : List (Nat × Nat)} {org : Nat → Nat} {S : Nat → Prop}
    (hS : ∀ n, S n → Complete G T org n) (hSs : ∀ n, S n → ∀ s ∈ succOf T n, S s) {n : Nat} {q : List Nat}
    (hq : PathFrom T n q) : S n → PathFrom G (org n) (q.map org) := by
  induction hq with
  | single n => intro _; exact .single _
  | step he hp ih =>
    intro hn
    have hm := mem_succOf.2 he
    rw [List.map_cons]
    exact .step (mem_succOf.1 ((hS _ hn).mem_iff.1 (List.mem_map_of_mem hm))) (ih (hSs _ hn _ hm))

theorem complete_leaf {G T : List (Nat × Nat)} {org : Nat → Nat} {n : Nat} (h : Complete G T org n) :
    IsLeaf T n ↔ IsLeaf G (org n) := by
  unfold IsLeaf
  constructor
  · intro h1 b hb
    obtain ⟨s, hs, _⟩ := List.mem_map.1 (h.mem_iff.2 (mem_succOf.2 hb))
    exact h1 s (mem_succOf.1 hs)
  · intro h1 b hb
    exact h1 _ (mem_succOf.1 (h.mem_iff.1 (List.mem_map_of_mem (mem_succOf.2 hb))))

theorem nodup_of_map_snd {E : List (Nat × Nat)} (h : (E.map (·.2)).Nodup) : E.Nodup := List.Nodup.of_map _ h

theorem onePred_of_nodup {E : List (Nat × Nat)} (h : (E.map (·.2)).Nodup) (a a' b : Nat)
    (h1 : (a, b) ∈ E) (h2 : (a', b) ∈ E) : a = a' := by
  have := List.inj_on_of_nodup_map h h1 h2 rfl
  injection this

end Pyensys
