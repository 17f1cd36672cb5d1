import Verif.Props.GlpkNetwork

/-!
# C150-C155: when the optimal power flow for GLPK runs, and what it gives
-/

namespace Pyensys

/-! ## names -/

theorem nodup_blocks {α β γ : Type} (l : List α) (f : α → List β) (g : β → γ) (r : α → γ) (hr : ∀ a ∈ l, ∀ b ∈ l, r a = r b → a = b)
    (hl : l.Nodup) (hf : ∀ a ∈ l, (f a).Nodup) (hg : ∀ a ∈ l, ∀ b ∈ f a, g b = r a) : (l.flatMap f).Nodup := by
  rw [List.nodup_flatMap]
  refine ⟨hf, ?_⟩
  refine List.Pairwise.imp_of_mem ?_ hl
  intro a b ha hb hab
  simp only [Function.onFun]
  intro x hx hx'
  exact hab (hr a ha b hb ((hg a ha x hx).symm.trans (hg b hb x hx')))

theorem gnTimes_nodup (c : GnCase) : (gnTimes c).Nodup := by
  unfold gnTimes
  refine nodup_blocks _ _ (fun q => q.1) (fun i => i) (fun _ _ _ _ h => h) List.nodup_range ?_ ?_
  · intro i _
    exact List.nodup_range.map (fun a b h => by simpa using h)
  · intro i _ q hq
    obtain ⟨j, _, rfl⟩ := List.mem_map.1 hq
    rfl

theorem gnStates_nodup (c : GnCase) : (gnStates c).Nodup := by
  unfold gnStates
  refine nodup_blocks _ _ (fun q => (q.1, q.2.1)) (fun i => i) (fun _ _ _ _ h => h) (gnTimes_nodup c) ?_ ?_
  · intro i _
    exact List.nodup_range.map (fun a b h => by simpa using h)
  · intro i _ q hq
    obtain ⟨j, _, rfl⟩ := List.mem_map.1 hq
    rfl

theorem gSome_keys (k : GKey) (bs : List GBnd) : ((gSome k bs).map (·.1)).Sublist [k] := by
  unfold gSome
  split <;> simp

theorem gnCommon_keys (c : GnCase) (i j : Nat) : ((gnCommon c i j).map (·.1)).Sublist
    [(.thermal, [i, j]), (.resGen, [i, j]), (.hydroGen, [i, j]), (.thermalCG, [i, j]), (.resCG, [i, j]), (.hydroCG, [i, j]), (.pumps, [i, j])] := by
  unfold gnCommon
  simp only [List.map_append]
  exact ((((((gSome_keys _ _).append (gSome_keys _ _)).append (gSome_keys _ _)).append (gSome_keys _ _)).append (gSome_keys _ _)).append
    (gSome_keys _ _)).append (gSome_keys _ _)

theorem gnOpfCols_keys (c : GnCase) (i j k : Nat) : ((gnOpfCols c i j k).map (·.1)).Sublist
    [(.flow, [i, j, k]), (.loss, [i, j, k]), (.lc, [i, j, k]), (.gc, [i, j, k]), (.angle, [i, j, k])] := by
  have h1 : ((gnLossCols c i j k).map (·.1)).Sublist [((GTag.loss, [i, j, k]) : GKey)] := by
    unfold gnLossCols
    split <;> simp
  have h2 : ((if c.feas = true then
      [(((GTag.lc, [i, j, k]) : GKey), c.buses.map (fun b => if 0 < b.demand then GBnd.bounded 0 (b.demand * gnMult c b i j) else .fixed 0)),
       ((.gc, [i, j, k]), c.buses.map (fun b => if gnHasGen c b = true then GBnd.lower 0 else .fixed 0))]
     else []).map (·.1)).Sublist [((GTag.lc, [i, j, k]) : GKey), (.gc, [i, j, k])] := by
    split <;> simp
  unfold gnOpfCols
  simp only [List.map_append]
  exact (((List.Sublist.refl [((GTag.flow, [i, j, k]) : GKey)]).append h1).append h2).append (List.Sublist.refl [((GTag.angle, [i, j, k]) : GKey)])

theorem gnEdCols_keys (c : GnCase) (i j : Nat) : ((gnEdCols c i j).map (·.1)).Sublist [(.lcs, [i, j]), (.gcs, [i, j])] := by
  unfold gnEdCols
  split <;> simp

/-- the tags of the network -/
def gnTags : List GTag := [.thermal, .resGen, .hydroGen, .thermalCG, .resCG, .hydroCG, .pumps]

theorem gnCols_keys (c : GnCase) : ((gnCols c).map (·.1)).Nodup := by
  have hc : (((gnTimes c).flatMap (fun q => gnCommon c q.1 q.2)).map (·.1)).Nodup := by
    rw [List.map_flatMap]
    refine nodup_blocks _ _ (fun k : GKey => k.2) (fun q => [q.1, q.2]) ?_ (gnTimes_nodup c) ?_ ?_
    · intro a _ b _ h
      simp only [List.cons.injEq, and_true] at h
      exact Prod.ext h.1 h.2
    · intro q _
      exact (by simp : List.Nodup [((GTag.thermal, [q.1, q.2]) : GKey), (.resGen, [q.1, q.2]), (.hydroGen, [q.1, q.2]), (.thermalCG, [q.1, q.2]),
        (.resCG, [q.1, q.2]), (.hydroCG, [q.1, q.2]), (.pumps, [q.1, q.2])]).sublist (gnCommon_keys c q.1 q.2)
    · intro q _ k hk
      have := (gnCommon_keys c q.1 q.2).subset hk
      simp only [List.mem_cons, List.not_mem_nil, or_false] at this
      rcases this with rfl | rfl | rfl | rfl | rfl | rfl | rfl <;> rfl
  have ho : (((gnStates c).flatMap (fun q => gnOpfCols c q.1 q.2.1 q.2.2)).map (·.1)).Nodup := by
    rw [List.map_flatMap]
    refine nodup_blocks _ _ (fun k : GKey => k.2) (fun q => [q.1, q.2.1, q.2.2]) ?_ (gnStates_nodup c) ?_ ?_
    · intro a _ b _ h
      simp only [List.cons.injEq, and_true] at h
      exact Prod.ext h.1 (Prod.ext h.2.1 h.2.2)
    · intro q _
      exact (by simp : List.Nodup [((GTag.flow, [q.1, q.2.1, q.2.2]) : GKey), (.loss, [q.1, q.2.1, q.2.2]), (.lc, [q.1, q.2.1, q.2.2]),
        (.gc, [q.1, q.2.1, q.2.2]), (.angle, [q.1, q.2.1, q.2.2])]).sublist (gnOpfCols_keys c q.1 q.2.1 q.2.2)
    · intro q _ k hk
      have := (gnOpfCols_keys c q.1 q.2.1 q.2.2).subset hk
      simp only [List.mem_cons, List.not_mem_nil, or_false] at this
      rcases this with rfl | rfl | rfl | rfl | rfl <;> rfl
  have he : (((gnTimes c).flatMap (fun q => gnEdCols c q.1 q.2)).map (·.1)).Nodup := by
    rw [List.map_flatMap]
    refine nodup_blocks _ _ (fun k : GKey => k.2) (fun q => [q.1, q.2]) ?_ (gnTimes_nodup c) ?_ ?_
    · intro a _ b _ h
      simp only [List.cons.injEq, and_true] at h
      exact Prod.ext h.1 h.2
    · intro q _
      exact (by simp : List.Nodup [((GTag.lcs, [q.1, q.2]) : GKey), (.gcs, [q.1, q.2])]).sublist (gnEdCols_keys c q.1 q.2)
    · intro q _ k hk
      have := (gnEdCols_keys c q.1 q.2).subset hk
      simp only [List.mem_cons, List.not_mem_nil, or_false] at this
      rcases this with rfl | rfl <;> rfl
  have tag1 : ∀ k ∈ ((gnTimes c).flatMap (fun q => gnCommon c q.1 q.2)).map (·.1), k.1 ∈ gnTags := by
    rw [List.map_flatMap]
    intro k hk
    obtain ⟨q, _, hk⟩ := List.mem_flatMap.1 hk
    have := (gnCommon_keys c q.1 q.2).subset hk
    simp only [List.mem_cons, List.not_mem_nil, or_false] at this
    rcases this with rfl | rfl | rfl | rfl | rfl | rfl | rfl <;> simp [gnTags]
  unfold gnCols
  rw [List.map_append, List.nodup_append]
  refine ⟨hc, ?_, ?_⟩
  · split
    · exact ho
    · exact he
  · intro a ha b hb hab
    subst hab
    have h1 := tag1 a ha
    split at hb
    · rw [List.map_flatMap] at hb
      obtain ⟨q, _, hk⟩ := List.mem_flatMap.1 hb
      have := (gnOpfCols_keys c q.1 q.2.1 q.2.2).subset hk
      simp only [List.mem_cons, List.not_mem_nil, or_false] at this
      rcases this with rfl | rfl | rfl | rfl | rfl <;> simp [gnTags] at h1
    · rw [List.map_flatMap] at hb
      obtain ⟨q, _, hk⟩ := List.mem_flatMap.1 hb
      have := (gnEdCols_keys c q.1 q.2).subset hk
      simp only [List.mem_cons, List.not_mem_nil, or_false] at this
      rcases this with rfl | rfl <;> simp [gnTags] at h1

theorem zipIdx_keys {α : Type} (l : List α) (q : α × Nat → Bool) (f : Nat → GKey) (hf : ∀ a b, f a = f b → a = b) :
    ((l.zipIdx.filter q).map (fun u => f u.2)).Nodup := by
  have := zipIdx_snd_nodup l q
  rw [show (fun u : α × Nat => f u.2) = f ∘ Prod.snd from rfl, ← List.map_map]
  exact this.map (fun a b h => hf a b h)

theorem gnPwc_keys (c : GnCase) : ((gnPwc c).map (·.key)).Nodup ∧ ∀ g ∈ gnPwc c, g.key.1 = .thermalPWC ∨ g.key.1 = .resPWC ∨ g.key.1 = .hydroPWC := by
  constructor
  · unfold gnPwc
    rw [List.map_flatMap]
    have hblock : ∀ {α : Type} (l : List α) (tag : GTag) (i j : Nat), (l.zipIdx.map (fun u => ((tag, [i, j, u.2]) : GKey))).Nodup := by
      intro α l tag i j
      have := zipIdx_keys l (fun _ => true) (fun n => (tag, [i, j, n])) (fun a b h => by simpa using h)
      rwa [List.filter_true] at this
    refine nodup_blocks _ _ (fun k : GKey => k.2.take 2) (fun q => [q.1, q.2]) ?_ (gnTimes_nodup c) ?_ ?_
    · intro a _ b _ h
      simp only [List.cons.injEq, and_true] at h
      exact Prod.ext h.1 h.2
    · intro q _
      simp only [List.map_append, List.map_map]
      rw [List.nodup_append, List.nodup_append]
      refine ⟨⟨hblock _ _ _ _, hblock _ _ _ _, ?_⟩, hblock _ _ _ _, ?_⟩
      · intro a ha b hb hab
        obtain ⟨u, _, rfl⟩ := List.mem_map.1 ha
        obtain ⟨u', _, rfl⟩ := List.mem_map.1 hb
        simp [gnPieces] at hab
      · intro a ha b hb hab
        obtain ⟨u', _, rfl⟩ := List.mem_map.1 hb
        rcases List.mem_append.1 ha with ha | ha <;> obtain ⟨u, _, rfl⟩ := List.mem_map.1 ha <;> simp [gnPieces] at hab
    · intro q _ k hk
      simp only [List.map_append, List.map_map, List.mem_append, List.mem_map] at hk
      rcases hk with (⟨u, _, rfl⟩ | ⟨u, _, rfl⟩) | ⟨u, _, rfl⟩ <;> rfl
  · intro g hg
    unfold gnPwc at hg
    simp only [List.mem_flatMap, List.mem_append, List.mem_map] at hg
    obtain ⟨q, _, (⟨u, _, rfl⟩ | ⟨u, _, rfl⟩) | ⟨u, _, rfl⟩⟩ := hg <;> simp [gnPieces]

theorem gnStates_keys (c : GnCase) (tag : GTag) : ((gnStates c).map (fun q => ((tag, [q.1, q.2.1, q.2.2]) : GKey))).Nodup := by
  refine (gnStates_nodup c).map ?_
  intro a b h
  simp only [Prod.mk.injEq, List.cons.injEq, and_true, true_and] at h
  exact Prod.ext h.1 (Prod.ext h.2.1 h.2.2)

theorem gnLosses_keys (c : GnCase) (rt : GTag) (sign : Rat) (ps : List (Rat × Rat)) : ((gnLosses c rt sign ps).map (·.key)).Nodup := by
  unfold gnLosses
  rw [List.map_flatMap]
  refine nodup_blocks _ _ (fun k : GKey => k.2.take 3) (fun q => [q.1, q.2.1, q.2.2]) ?_ (gnStates_nodup c) ?_ ?_
  · intro a _ b _ h
    simp only [List.cons.injEq, and_true] at h
    exact Prod.ext h.1 (Prod.ext h.2.1 h.2.2)
  · intro q _
    simp only [List.map_map]
    exact zipIdx_keys c.branches (fun b => b.1.on q.2.2) (fun n => (rt, [q.1, q.2.1, q.2.2, n])) (fun a b h => by simpa using h)
  · intro q _ k hk
    simp only [List.map_map, List.mem_map] at hk
    obtain ⟨u, _, rfl⟩ := hk
    rfl

theorem gnLosses_tag {c : GnCase} {rt : GTag} {sign : Rat} {ps : List (Rat × Rat)} {g : GRows} (hg : g ∈ gnLosses c rt sign ps) : g.key.1 = rt := by
  unfold gnLosses at hg
  simp only [List.mem_flatMap, List.mem_map] at hg
  obtain ⟨q, _, b, _, rfl⟩ := hg
  rfl

theorem gnOpfRows_keys (c : GnCase) : ((gnOpfRows c).map (·.key)).Nodup ∧
    ∀ g ∈ gnOpfRows c, g.key.1 = .balance ∨ g.key.1 = .flowC ∨ g.key.1 = .losses1 ∨ g.key.1 = .losses2 := by
  have tb : ∀ g ∈ gnBalance c, g.key.1 = .balance := by
    intro g hg
    obtain ⟨q, _, rfl⟩ := List.mem_map.1 hg
    rfl
  have tf : ∀ g ∈ gnFlows c, g.key.1 = .flowC := by
    intro g hg
    obtain ⟨q, _, rfl⟩ := List.mem_map.1 hg
    rfl
  have tl : ∀ g ∈ gnLossRows c, g.key.1 = .losses1 ∨ g.key.1 = .losses2 := by
    intro g hg
    unfold gnLossRows at hg
    split at hg
    · rcases List.mem_append.1 hg with hg | hg
      · exact .inl (gnLosses_tag hg)
      · exact .inr (gnLosses_tag hg)
    · simp at hg
  constructor
  · unfold gnOpfRows
    rw [List.map_append, List.map_append, List.nodup_append, List.nodup_append]
    refine ⟨⟨?_, ?_, ?_⟩, ?_, ?_⟩
    · unfold gnBalance
      rw [List.map_map]
      exact gnStates_keys c .balance
    · unfold gnFlows
      rw [List.map_map]
      exact gnStates_keys c .flowC
    · intro a ha b hb hab
      obtain ⟨g, hg, rfl⟩ := List.mem_map.1 ha
      obtain ⟨g', hg', rfl⟩ := List.mem_map.1 hb
      have := tb g hg
      rw [hab, tf g' hg'] at this
      simp at this
    · unfold gnLossRows
      split
      · rw [List.map_append, List.nodup_append]
        refine ⟨gnLosses_keys _ _ _ _, gnLosses_keys _ _ _ _, ?_⟩
        intro a ha b hb hab
        obtain ⟨g, hg, rfl⟩ := List.mem_map.1 ha
        obtain ⟨g', hg', rfl⟩ := List.mem_map.1 hb
        have := gnLosses_tag hg
        rw [hab, gnLosses_tag hg'] at this
        simp at this
      · simp
    · intro a ha b hb hab
      obtain ⟨g', hg', rfl⟩ := List.mem_map.1 hb
      rw [← List.map_append] at ha
      obtain ⟨g, hg, rfl⟩ := List.mem_map.1 ha
      rcases List.mem_append.1 hg with hg | hg
      · have := tb g hg
        rw [hab] at this
        rcases tl g' hg' with e | e <;> rw [e] at this <;> simp at this
      · have := tf g hg
        rw [hab] at this
        rcases tl g' hg' with e | e <;> rw [e] at this <;> simp at this
  · intro g hg
    rcases List.mem_append.1 hg with hg | hg
    · rcases List.mem_append.1 hg with hg | hg
      · exact .inl (tb g hg)
      · exact .inr (.inl (tf g hg))
    · rcases tl g hg with e | e
      · exact .inr (.inr (.inl e))
      · exact .inr (.inr (.inr e))

/-! ## columns that exist -/

theorem has_gSome {α : Type} {p : GProb} {k : GKey} {l : List α} {f : α → GBnd} {n : Nat} (h : ∀ g ∈ gSome k (l.map f), g ∈ p.cols) (hn : n < l.length) :
    p.has (k, n) := by
  refine ⟨l.map f, h _ ?_, by simpa using hn⟩
  unfold gSome
  rw [if_neg]
  · simp
  · intro e
    rw [List.map_eq_nil_iff] at e
    rw [e] at hn
    simp at hn

theorem gnHas_units {c : GnCase} {p : GProb} (hp : ∀ g ∈ gnCols c, g ∈ p.cols) {i j : Nat} (hi : i < c.insts) (hj : j < c.periods) :
    (∀ n, n < c.conv.length → p.has ((.thermal, [i, j]), n) ∧ p.has ((.thermalCG, [i, j]), n)) ∧
    (∀ n, n < c.res.length → p.has ((.resGen, [i, j]), n) ∧ p.has ((.resCG, [i, j]), n)) ∧
    (∀ n, n < c.hydro.length → p.has ((.hydroGen, [i, j]), n) ∧ p.has ((.hydroCG, [i, j]), n)) ∧
    (∀ n, n < c.pumps.length → p.has ((.pumps, [i, j]), n)) := by
  have hc : ∀ g ∈ gnCommon c i j, g ∈ p.cols := by
    intro g hg
    refine hp g ?_
    unfold gnCols
    exact List.mem_append_left _ (List.mem_flatMap.2 ⟨(i, j), mem_gnTimes.2 ⟨hi, hj⟩, hg⟩)
  unfold gnCommon at hc
  simp only [List.mem_append] at hc
  exact ⟨fun n hn => ⟨has_gSome (fun g hg => hc g (.inl (.inl (.inl (.inl (.inl (.inl hg))))))) hn, has_gSome (fun g hg => hc g (.inl (.inl (.inl (.inr hg))))) hn⟩,
    fun n hn => ⟨has_gSome (fun g hg => hc g (.inl (.inl (.inl (.inl (.inl (.inr hg))))))) hn, has_gSome (fun g hg => hc g (.inl (.inl (.inr hg)))) hn⟩,
    fun n hn => ⟨has_gSome (fun g hg => hc g (.inl (.inl (.inl (.inl (.inr hg)))))) hn, has_gSome (fun g hg => hc g (.inl (.inr hg))) hn⟩,
    fun n hn => has_gSome (fun g hg => hc g (.inr hg)) hn⟩

theorem gnHas_net {c : GnCase} (hopf : c.opf = true) {p : GProb} (hp : ∀ g ∈ gnCols c, g ∈ p.cols) {i j k : Nat} (hi : i < c.insts) (hj : j < c.periods)
    (hk : k ≤ c.cont) :
    (∀ n, n < c.branches.length → p.has ((.flow, [i, j, k]), n) ∧ (c.lossPieces ≠ none → p.has ((.loss, [i, j, k]), n))) ∧
    (∀ n, n < c.buses.length → p.has ((.angle, [i, j, k]), n) ∧ (c.feas = true → p.has ((.lc, [i, j, k]), n) ∧ p.has ((.gc, [i, j, k]), n))) := by
  have hc : ∀ g ∈ gnOpfCols c i j k, g ∈ p.cols := by
    intro g hg
    refine hp g ?_
    unfold gnCols
    rw [if_pos hopf]
    exact List.mem_append_right _ (List.mem_flatMap.2 ⟨(i, j, k), mem_gnStates.2 ⟨hi, hj, hk⟩, hg⟩)
  unfold gnOpfCols at hc
  simp only [List.mem_append] at hc
  refine ⟨fun n hn => ⟨⟨_, hc _ (.inl (.inl (.inl (List.mem_singleton.2 rfl)))), by simpa using hn⟩, fun hl => ?_⟩,
    fun n hn => ⟨⟨_, hc _ (.inr (List.mem_singleton.2 rfl)), by simpa using hn⟩, fun hf => ?_⟩⟩
  · obtain ⟨ps, hps⟩ := Option.ne_none_iff_exists'.1 hl
    refine ⟨c.branches.map (fun b => if b.on k = true then .lower 0 else .fixed 0), hc _ (.inl (.inl (.inr ?_))), by simpa using hn⟩
    unfold gnLossCols
    rw [hps]
    simp
  · refine ⟨⟨c.buses.map (fun b => if 0 < b.demand then .bounded 0 (b.demand * gnMult c b i j) else .fixed 0), hc _ (.inl (.inr ?_)), by simpa using hn⟩,
      ⟨c.buses.map (fun b => if gnHasGen c b = true then .lower 0 else .fixed 0), hc _ (.inl (.inr ?_)), by simpa using hn⟩⟩ <;> rw [if_pos hf] <;> simp

/-! ## rows that are accepted -/

/-- what the optimal power flow asks of the network: buses and branches, a piece of cost for each unit and of losses for the branches, branches with two different
ends, and after each contingency a branch out of service and another one -/
structure GnWell (c : GnCase) : Prop where
  opf : c.opf = true
  buses : c.buses ≠ []
  branches : c.branches ≠ []
  conv : ∀ u ∈ c.conv, u.pieces ≠ []
  res : ∀ u ∈ c.res, u.pieces ≠ []
  hydro : ∀ u ∈ c.hydro, u.pieces ≠ []
  losses : c.lossPieces ≠ some []
  out : GnOut c
  many : 1 ≤ c.cont → 2 ≤ c.branches.length
  ends : ∀ b ∈ c.branches, b.fbus ≠ b.tbus ∧ b.fpos ≠ b.tpos ∧ b.fpos < c.buses.length ∧ b.tpos < c.buses.length

theorem gnCols_sizes {c : GnCase} (hb : c.opf = true → c.buses ≠ [] ∧ c.branches ≠ []) : ∀ g ∈ gnCols c, g.2 ≠ [] := by
  intro g hg
  have hsome : ∀ k bs, ∀ g ∈ gSome k bs, g.2 ≠ [] := by
    intro k bs g hg
    unfold gSome at hg
    split at hg
    · simp at hg
    · simp only [List.mem_cons, List.not_mem_nil, or_false] at hg
      subst hg
      assumption
  unfold gnCols at hg
  rcases List.mem_append.1 hg with hg | hg
  · obtain ⟨q, _, hg⟩ := List.mem_flatMap.1 hg
    unfold gnCommon at hg
    simp only [List.mem_append] at hg
    rcases hg with (((((hg | hg) | hg) | hg) | hg) | hg) | hg <;> exact hsome _ _ g hg
  · split at hg
    · rename_i ho
      obtain ⟨h1, h2⟩ := hb ho
      obtain ⟨q, _, hg⟩ := List.mem_flatMap.1 hg
      unfold gnOpfCols gnLossCols at hg
      simp only [List.mem_append, List.mem_cons, List.not_mem_nil, or_false] at hg
      rcases hg with ((rfl | hg) | hg) | rfl
      · simpa using h2
      · split at hg
        · simp only [List.mem_cons, List.not_mem_nil, or_false] at hg
          subst hg
          simpa using h2
        · simp at hg
      · split at hg
        · simp only [List.mem_cons, List.not_mem_nil, or_false] at hg
          rcases hg with rfl | rfl <;> simpa using h1
        · simp at hg
      · simpa using h1
    · obtain ⟨q, _, hg⟩ := List.mem_flatMap.1 hg
      unfold gnEdCols at hg
      split at hg
      · simp only [List.mem_cons, List.not_mem_nil, or_false] at hg
        rcases hg with rfl | rfl <;> simp
      · simp at hg

theorem gnPwc_good {c : GnCase} (h1 : ∀ u ∈ c.conv, u.pieces ≠ []) (h2 : ∀ u ∈ c.res, u.pieces ≠ []) (h3 : ∀ u ∈ c.hydro, u.pieces ≠ [])
    {p : GProb} (hp : ∀ g ∈ gnCols c, g ∈ p.cols) : ∀ g ∈ gnPwc c, g.size ≠ 0 ∧
      ∀ r ∈ g.rows, (r.terms.map (·.1)).Nodup ∧ ∀ t ∈ r.terms, p.has t.1 := by
  have hblock : ∀ (rt cg gen : GTag) (h : Rat) (i j k : Nat) (pieces : List (Rat × Rat)), pieces ≠ [] → cg ≠ gen → p.has ((cg, [i, j]), k) →
      p.has ((gen, [i, j]), k) → (gnPieces rt cg gen h i j k pieces).size ≠ 0 ∧
      ∀ r ∈ (gnPieces rt cg gen h i j k pieces).rows, (r.terms.map (·.1)).Nodup ∧ ∀ t ∈ r.terms, p.has t.1 := by
    intro rt cg gen h i j k pieces hne htag hc hg
    refine ⟨by simpa [gnPieces] using hne, ?_⟩
    intro r hr
    simp only [gnPieces, List.mem_map] at hr
    obtain ⟨q, _, rfl⟩ := hr
    refine ⟨by simp [htag], ?_⟩
    intro t ht
    simp only [List.mem_cons, List.not_mem_nil, or_false] at ht
    rcases ht with rfl | rfl
    · exact hc
    · exact hg
  intro g hg
  unfold gnPwc at hg
  simp only [List.mem_flatMap, List.mem_append, List.mem_map] at hg
  obtain ⟨q, hq, hg⟩ := hg
  obtain ⟨u1, u2, u3, _⟩ := gnHas_units hp (mem_gnTimes.1 hq).1 (mem_gnTimes.1 hq).2
  rcases hg with (⟨u, hu, rfl⟩ | ⟨u, hu, rfl⟩) | ⟨u, hu, rfl⟩
  · have := u1 u.2 (List.getElem?_eq_some_iff.1 (mem_zipIdx_iff'.1 hu)).1
    exact hblock _ _ _ _ _ _ _ _ (h1 u.1 (mem_fst_zipIdx hu)) (by simp) this.2 this.1
  · have := u2 u.2 (List.getElem?_eq_some_iff.1 (mem_zipIdx_iff'.1 hu)).1
    exact hblock _ _ _ _ _ _ _ _ (h2 u.1 (mem_fst_zipIdx hu)) (by simp) this.2 this.1
  · have := u3 u.2 (List.getElem?_eq_some_iff.1 (mem_zipIdx_iff'.1 hu)).1
    exact hblock _ _ _ _ _ _ _ _ (h3 u.1 (mem_fst_zipIdx hu)) (by simp) this.2 this.1

/-- the columns of a list of units, without repetition -/
theorem filter_cols_nodup {α : Type} (l : List α) (q : α × Nat → Bool) (k : GKey) : ((l.zipIdx.filter q).map (fun u => ((k, u.2) : GCol))).Nodup := by
  rw [show (fun u : α × Nat => ((k, u.2) : GCol)) = (fun n => (k, n)) ∘ Prod.snd from rfl, ← List.map_map]
  exact (zipIdx_snd_nodup l q).map (fun a b h => by simpa using h)

theorem gnAt_cols {α : Type} (bus : α → Int) (n : Int) (tag : GTag) (i j : Nat) (l : List α) :
    (((gnAt bus n tag i j l).map (·.1)).Nodup) ∧ ∀ t ∈ gnAt bus n tag i j l, ∃ m, m < l.length ∧ t.1 = ((tag, [i, j]), m) := by
  unfold gnAt
  constructor
  · rw [List.map_map]
    exact filter_cols_nodup l _ _
  · intro t ht
    obtain ⟨u, hu, rfl⟩ := List.mem_map.1 ht
    exact ⟨u.2, (List.getElem?_eq_some_iff.1 (mem_zipIdx_iff'.1 (List.mem_filter.1 hu).1)).1, rfl⟩

theorem gnFlowTerms_cols {c : GnCase} (he : ∀ b ∈ c.branches, b.fbus ≠ b.tbus) (n : Int) (i j k : Nat) :
    ((c.branches.zipIdx.flatMap (gnFlowTerms n i j k)).map (·.1)).Nodup ∧
    ∀ t ∈ c.branches.zipIdx.flatMap (gnFlowTerms n i j k), ∃ m, m < c.branches.length ∧ t.1 = ((.flow, [i, j, k]), m) := by
  constructor
  · rw [List.map_flatMap]
    refine nodup_blocks _ _ (fun t : GCol => t.2) (fun b : GnBranch × Nat => b.2) ?_ ?_ ?_ ?_
    · intro a ha b hb h
      have h1 := mem_zipIdx_iff'.1 ha
      have h2 := mem_zipIdx_iff'.1 hb
      rw [h, h2, Option.some.injEq] at h1
      exact Prod.ext h1.symm h
    · exact List.Nodup.of_map (·.2) (by rw [List.zipIdx_map_snd]; exact List.nodup_range')
    · intro b hb
      have := he b.1 (mem_fst_zipIdx hb)
      unfold gnFlowTerms
      by_cases h1 : b.1.fbus = n
      · have h2 : b.1.tbus ≠ n := fun e => this (h1.trans e.symm)
        simp [h1, h2]
      · by_cases h2 : b.1.tbus = n <;> simp [h1, h2]
    · intro b _ t ht
      unfold gnFlowTerms at ht
      by_cases h1 : b.1.fbus = n <;> by_cases h2 : b.1.tbus = n <;> simp [h1, h2] at ht <;> rw [ht]
  · intro t ht
    obtain ⟨b, hb, ht⟩ := List.mem_flatMap.1 ht
    refine ⟨b.2, (List.getElem?_eq_some_iff.1 (mem_zipIdx_iff'.1 hb)).1, ?_⟩
    unfold gnFlowTerms at ht
    by_cases h1 : b.1.fbus = n <;> by_cases h2 : b.1.tbus = n <;> simp [h1, h2] at ht
    · rcases ht with rfl | rfl <;> rfl
    · rw [ht]
    · rw [ht]

theorem gnLossTerms_cols (c : GnCase) (n : Int) (i j k : Nat) :
    (((gnLossPart c n i j k).1.map (·.1)).Nodup) ∧
    ∀ t ∈ (gnLossPart c n i j k).1, c.lossPieces ≠ none ∧ ∃ m, m < c.branches.length ∧ t.1 = ((.loss, [i, j, k]), m) := by
  unfold gnLossPart
  cases c.lossPieces with
  | none => simp
  | some ps =>
    simp only
    constructor
    · rw [List.map_flatMap]
      refine nodup_blocks _ _ (fun t : GCol => t.2) (fun b : GnBranch × Nat => b.2) ?_ ?_ ?_ ?_
      · intro a ha b hb h
        have h1 := mem_zipIdx_iff'.1 ha
        have h2 := mem_zipIdx_iff'.1 hb
        rw [h, h2, Option.some.injEq] at h1
        exact Prod.ext h1.symm h
      · exact List.Nodup.of_map (·.2) (by rw [List.zipIdx_map_snd]; exact List.nodup_range')
      · intro b hb
        unfold gnLossTerms
        split <;> simp
      · intro b _ t ht
        unfold gnLossTerms at ht
        split at ht
        · simp at ht; rw [ht]
        · simp at ht
    · intro t ht
      obtain ⟨b, hb, ht⟩ := List.mem_flatMap.1 ht
      refine ⟨by simp, b.2, (List.getElem?_eq_some_iff.1 (mem_zipIdx_iff'.1 hb)).1, ?_⟩
      unfold gnLossTerms at ht
      split at ht
      · simp at ht; rw [ht]
      · simp at ht

theorem gnBalanceRow_good {c : GnCase} (hopf : c.opf = true) (he : ∀ b ∈ c.branches, b.fbus ≠ b.tbus) {p : GProb} (hp : ∀ g ∈ gnCols c, g ∈ p.cols)
    {i j k : Nat} (hi : i < c.insts) (hj : j < c.periods) (hk : k ≤ c.cont) (b : GnBus × Nat) (hb : b.2 < c.buses.length) :
    ((gnBalanceRow c i j k b).terms.map (·.1)).Nodup ∧ ∀ t ∈ (gnBalanceRow c i j k b).terms, p.has t.1 := by
  obtain ⟨u1, u2, u3, u4⟩ := gnHas_units hp hi hj
  obtain ⟨n1, n2⟩ := gnHas_net hopf hp hi hj hk
  obtain ⟨a1, a2⟩ := gnAt_cols (fun u : GnUnit => u.bus) b.1.number .thermal i j c.conv
  obtain ⟨b1, b2⟩ := gnAt_cols (fun u : GnRes => u.bus) b.1.number .resGen i j c.res
  obtain ⟨c1, c2⟩ := gnAt_cols (fun u : GnUnit => u.bus) b.1.number .hydroGen i j c.hydro
  obtain ⟨d1, d2⟩ := gnFlowTerms_cols he b.1.number i j k
  obtain ⟨e1, e2⟩ := gnLossTerms_cols c b.1.number i j k
  have p1 : (((c.pumps.zipIdx.filter (fun q => decide (0 < q.1.1 / c.base))).map (fun q => (((GTag.pumps, [i, j]), q.2), (-1 : Rat)))).map (·.1)).Nodup := by
    rw [List.map_map]
    exact filter_cols_nodup c.pumps _ _
  have p2 : ∀ t ∈ (c.pumps.zipIdx.filter (fun q => decide (0 < q.1.1 / c.base))).map (fun q => (((GTag.pumps, [i, j]), q.2), (-1 : Rat))),
      ∃ m, m < c.pumps.length ∧ t.1 = ((.pumps, [i, j]), m) := by
    intro t ht
    obtain ⟨u, hu, rfl⟩ := List.mem_map.1 ht
    exact ⟨u.2, (List.getElem?_eq_some_iff.1 (mem_zipIdx_iff'.1 (List.mem_filter.1 hu).1)).1, rfl⟩
  have f1 : ((if c.feas = true then [(((GTag.lc, [i, j, k]), b.2), (1 : Rat)), (((.gc, [i, j, k]), b.2), -1)] else []).map (·.1)).Nodup := by
    split <;> simp
  have f2 : ∀ t ∈ (if c.feas = true then [(((GTag.lc, [i, j, k]), b.2), (1 : Rat)), (((.gc, [i, j, k]), b.2), -1)] else []),
      c.feas = true ∧ (t.1 = ((.lc, [i, j, k]), b.2) ∨ t.1 = ((.gc, [i, j, k]), b.2)) := by
    intro t ht
    split at ht
    · rename_i hf
      simp only [List.mem_cons, List.not_mem_nil, or_false] at ht
      refine ⟨hf, ?_⟩
      rcases ht with rfl | rfl
      · exact .inl rfl
      · exact .inr rfl
    · simp at ht
  have dis : ∀ {l l' : List (GCol × Rat)}, (∀ t ∈ l, ∀ t' ∈ l', t.1.1.1 ≠ t'.1.1.1) → ∀ a ∈ l.map (·.1), ∀ b ∈ l'.map (·.1), a ≠ b := by
    intro l l' h a ha b hb hab
    obtain ⟨t, ht, rfl⟩ := List.mem_map.1 ha
    obtain ⟨t', ht', rfl⟩ := List.mem_map.1 hb
    exact h t ht t' ht' (by rw [hab])
  have tags : (∀ t ∈ gnAt (fun u : GnUnit => u.bus) b.1.number .thermal i j c.conv, t.1.1.1 = .thermal) ∧
      (∀ t ∈ gnAt (fun u : GnRes => u.bus) b.1.number .resGen i j c.res, t.1.1.1 = .resGen) ∧
      (∀ t ∈ gnAt (fun u : GnUnit => u.bus) b.1.number .hydroGen i j c.hydro, t.1.1.1 = .hydroGen) ∧
      (∀ t ∈ (c.pumps.zipIdx.filter (fun q => decide (0 < q.1.1 / c.base))).map (fun q => (((GTag.pumps, [i, j]), q.2), (-1 : Rat))), t.1.1.1 = .pumps) ∧
      (∀ t ∈ c.branches.zipIdx.flatMap (gnFlowTerms b.1.number i j k), t.1.1.1 = .flow) ∧
      (∀ t ∈ (gnLossPart c b.1.number i j k).1, t.1.1.1 = .loss) ∧
      (∀ t ∈ (if c.feas = true then [(((GTag.lc, [i, j, k]), b.2), (1 : Rat)), (((.gc, [i, j, k]), b.2), -1)] else []), t.1.1.1 = .lc ∨ t.1.1.1 = .gc) := by
    refine ⟨?_, ?_, ?_, ?_, ?_, ?_, ?_⟩
    · intro t ht; obtain ⟨m, _, e⟩ := a2 t ht; rw [e]
    · intro t ht; obtain ⟨m, _, e⟩ := b2 t ht; rw [e]
    · intro t ht; obtain ⟨m, _, e⟩ := c2 t ht; rw [e]
    · intro t ht; obtain ⟨m, _, e⟩ := p2 t ht; rw [e]
    · intro t ht; obtain ⟨m, _, e⟩ := d2 t ht; rw [e]
    · intro t ht; obtain ⟨_, m, _, e⟩ := e2 t ht; rw [e]
    · intro t ht; obtain ⟨_, e⟩ := f2 t ht; rcases e with e | e <;> rw [e] <;> simp
  obtain ⟨t1, t2, t3, t4, t5, t6, t7⟩ := tags
  unfold gnBalanceRow
  constructor
  · simp only [List.map_append (l₂ := if c.feas = true then _ else _)]
    rw [List.nodup_append]
    refine ⟨?_, f1, ?_⟩
    · simp only [List.map_append (l₂ := (gnLossPart c b.1.number i j k).1)]
      rw [List.nodup_append]
      refine ⟨?_, e1, ?_⟩
      · simp only [List.map_append]
        rw [List.nodup_append]
        refine ⟨?_, d1, ?_⟩
        · rw [List.nodup_append]
          refine ⟨?_, p1, ?_⟩
          · rw [List.nodup_append]
            refine ⟨?_, c1, ?_⟩
            · rw [List.nodup_append]
              refine ⟨a1, b1, dis ?_⟩
              intro t ht t' ht'
              rw [t1 t ht, t2 t' ht']
              simp
            · rw [← List.map_append]
              refine dis ?_
              intro t ht t' ht'
              rw [t3 t' ht']
              rcases List.mem_append.1 ht with ht | ht
              · rw [t1 t ht]; simp
              · rw [t2 t ht]; simp
          · rw [← List.map_append, ← List.map_append]
            refine dis ?_
            intro t ht t' ht'
            rw [t4 t' ht']
            simp only [List.mem_append] at ht
            rcases ht with (ht | ht) | ht
            · rw [t1 t ht]; simp
            · rw [t2 t ht]; simp
            · rw [t3 t ht]; simp
        · rw [← List.map_append, ← List.map_append, ← List.map_append]
          refine dis ?_
          intro t ht t' ht'
          rw [t5 t' ht']
          simp only [List.mem_append] at ht
          rcases ht with ((ht | ht) | ht) | ht
          · rw [t1 t ht]; simp
          · rw [t2 t ht]; simp
          · rw [t3 t ht]; simp
          · rw [t4 t ht]; simp
      · refine dis ?_
        intro t ht t' ht'
        rw [t6 t' ht']
        simp only [List.mem_append] at ht
        rcases ht with (((ht | ht) | ht) | ht) | ht
        · rw [t1 t ht]; simp
        · rw [t2 t ht]; simp
        · rw [t3 t ht]; simp
        · rw [t4 t ht]; simp
        · rw [t5 t ht]; simp
    · refine dis ?_
      intro t ht t' ht'
      have h7 := t7 t' ht'
      simp only [List.mem_append] at ht
      rcases ht with ((((ht | ht) | ht) | ht) | ht) | ht
      · rw [t1 t ht]; rcases h7 with e | e <;> rw [e] <;> simp
      · rw [t2 t ht]; rcases h7 with e | e <;> rw [e] <;> simp
      · rw [t3 t ht]; rcases h7 with e | e <;> rw [e] <;> simp
      · rw [t4 t ht]; rcases h7 with e | e <;> rw [e] <;> simp
      · rw [t5 t ht]; rcases h7 with e | e <;> rw [e] <;> simp
      · rw [t6 t ht]; rcases h7 with e | e <;> rw [e] <;> simp
  · intro t ht
    simp only [List.mem_append] at ht
    rcases ht with (((((ht | ht) | ht) | ht) | ht) | ht) | ht
    · obtain ⟨m, hm, e⟩ := a2 t ht; rw [e]; exact (u1 m hm).1
    · obtain ⟨m, hm, e⟩ := b2 t ht; rw [e]; exact (u2 m hm).1
    · obtain ⟨m, hm, e⟩ := c2 t ht; rw [e]; exact (u3 m hm).1
    · obtain ⟨m, hm, e⟩ := p2 t ht; rw [e]; exact u4 m hm
    · obtain ⟨m, hm, e⟩ := d2 t ht; rw [e]; exact (n1 m hm).1
    · obtain ⟨hl, m, hm, e⟩ := e2 t ht; rw [e]; exact (n1 m hm).2 hl
    · obtain ⟨hf, e⟩ := f2 t ht
      rcases e with e | e <;> rw [e]
      · exact ((n2 b.2 hb).2 hf).1
      · exact ((n2 b.2 hb).2 hf).2

theorem gnOpfRows_good {c : GnCase} (h : GnWell c) {p : GProb} (hp : ∀ g ∈ gnCols c, g ∈ p.cols) : ∀ g ∈ gnOpfRows c, g.size ≠ 0 ∧
    ∀ r ∈ g.rows, (r.terms.map (·.1)).Nodup ∧ ∀ t ∈ r.terms, p.has t.1 := by
  intro g hg
  rcases List.mem_append.1 hg with hg | hg
  · rcases List.mem_append.1 hg with hg | hg
    · obtain ⟨q, hq, rfl⟩ := List.mem_map.1 hg
      obtain ⟨hi, hj, hk⟩ := mem_gnStates.1 hq
      refine ⟨by simpa using h.buses, ?_⟩
      intro r hr
      obtain ⟨b, hb, rfl⟩ := List.mem_map.1 hr
      exact gnBalanceRow_good h.opf (fun b hb => (h.ends b hb).1) hp hi hj hk b
        (List.getElem?_eq_some_iff.1 (mem_zipIdx_iff'.1 (List.mem_filter.1 hb).1)).1
    · obtain ⟨q, hq, rfl⟩ := List.mem_map.1 hg
      obtain ⟨hi, hj, hk⟩ := mem_gnStates.1 hq
      obtain ⟨n1, n2⟩ := gnHas_net h.opf hp hi hj hk
      constructor
      · simp only
        have := h.branches
        rw [← List.length_pos_iff] at this
        split
        · omega
        · have := h.many (by omega)
          omega
      · intro r hr
        obtain ⟨b, hb, rfl⟩ := List.mem_map.1 hr
        have hm := (List.mem_filter.1 (mem_fst_zipIdx hb)).1
        obtain ⟨_, e2, e3, e4⟩ := h.ends b.1.1 (mem_fst_zipIdx hm)
        refine ⟨by simp [gnFlowRow, e2], ?_⟩
        intro t ht
        simp only [gnFlowRow, List.mem_cons, List.not_mem_nil, or_false] at ht
        rcases ht with rfl | rfl | rfl
        · exact (n1 _ (List.getElem?_eq_some_iff.1 (mem_zipIdx_iff'.1 hm)).1).1
        · exact (n2 _ e3).1
        · exact (n2 _ e4).1
  · have hl := h.losses
    unfold gnLossRows at hg
    split at hg
    · rename_i ps hps
      rw [hps] at hl
      have hne : ps ≠ [] := fun e => hl (by rw [e])
      unfold gnLosses at hg
      simp only [List.mem_append, List.mem_flatMap, List.mem_map] at hg
      rcases hg with ⟨q, hq, b, hb, rfl⟩ | ⟨q, hq, b, hb, rfl⟩
      all_goals
        obtain ⟨hi, hj, hk⟩ := mem_gnStates.1 hq
        obtain ⟨n1, _⟩ := gnHas_net h.opf hp hi hj hk
        have hn := n1 b.2 (List.getElem?_eq_some_iff.1 (mem_zipIdx_iff'.1 (List.mem_filter.1 hb).1)).1
        refine ⟨by simpa using hne, ?_⟩
        intro r hr
        simp only [List.mem_map] at hr
        obtain ⟨a, _, rfl⟩ := hr
        refine ⟨by simp, ?_⟩
        intro t ht
        simp only [List.mem_cons, List.not_mem_nil, or_false] at ht
        rcases ht with rfl | rfl
        · exact hn.2 (by simp [hps])
        · exact hn.1
    · simp at hg

theorem gnObj_has {c : GnCase} (hopf : c.opf = true) {p : GProb} (hp : ∀ g ∈ gnCols c, g ∈ p.cols) (w : Nat → Rat) (pen : Rat) :
    ∀ t ∈ gnObj c w pen, p.has t.1 := by
  intro t ht
  unfold gnObj at ht
  obtain ⟨q, hq, ht⟩ := List.mem_flatMap.1 ht
  obtain ⟨hi, hj⟩ := mem_gnTimes.1 hq
  obtain ⟨u1, u2, u3, u4⟩ := gnHas_units hp hi hj
  simp only [List.mem_append] at ht
  rcases ht with (((ht | ht) | ht) | ht) | ht
  · obtain ⟨m, hm, rfl⟩ := List.mem_map.1 ht
    exact (u1 m (by simpa using hm)).2
  · obtain ⟨m, hm, rfl⟩ := List.mem_map.1 ht
    exact (u2 m (by simpa using hm)).2
  · obtain ⟨m, hm, rfl⟩ := List.mem_map.1 ht
    exact (u3 m (by simpa using hm)).2
  · obtain ⟨m, hm, rfl⟩ := List.mem_map.1 ht
    exact u4 m.2 (List.getElem?_eq_some_iff.1 (mem_zipIdx_iff'.1 hm)).1
  · by_cases hf : c.feas = true
    · rw [if_pos hf, if_pos hopf] at ht
      obtain ⟨k, hk, ht⟩ := List.mem_flatMap.1 ht
      obtain ⟨_, n2⟩ := gnHas_net hopf hp hi hj (show k ≤ c.cont by rw [List.mem_range] at hk; omega)
      rcases List.mem_append.1 ht with ht | ht
      · obtain ⟨m, hm, rfl⟩ := List.mem_map.1 ht
        exact ((n2 m (by simpa using hm)).2 hf).1
      · obtain ⟨m, hm, rfl⟩ := List.mem_map.1 ht
        exact ((n2 m (by simpa using hm)).2 hf).2
    · rw [if_neg hf] at ht
      simp at ht

/-- the linear program of the optimal power flow -/
def gnOpf (c : GnCase) : GProb := ⟨gnCols c, gnPwc c ++ gnOpfRows c, gnObj c (fun _ => 1) 100000000⟩

theorem gnOpf_good {c : GnCase} (h : GnWell c) : GGood (gnOpf c) := by
  have hp : ∀ g ∈ gnCols c, g ∈ (gnOpf c).cols := fun g hg => hg
  have a := gnPwc_good h.conv h.res h.hydro hp
  have b := gnOpfRows_good h hp
  obtain ⟨k1, k2⟩ := gnPwc_keys c
  obtain ⟨k3, k4⟩ := gnOpfRows_keys c
  refine ⟨gnCols_keys c, gnCols_sizes (fun _ => ⟨h.buses, h.branches⟩), ?_, ?_, gFits_append (gnPwc_fits c) (gnOpfRows_fits h.out), ?_,
    gnObj_has h.opf hp (fun _ => 1) 100000000⟩
  · show ((gnPwc c ++ gnOpfRows c).map (·.key)).Nodup
    rw [List.map_append, List.nodup_append]
    refine ⟨k1, k3, ?_⟩
    intro x hx y hy hxy
    obtain ⟨g, hg, rfl⟩ := List.mem_map.1 hx
    obtain ⟨g', hg', rfl⟩ := List.mem_map.1 hy
    have e1 := k2 g hg
    have e2 := k4 g' hg'
    rw [hxy] at e1
    rcases e1 with e1 | e1 | e1 <;> rcases e2 with e2 | e2 | e2 | e2 <;> rw [e1] at e2 <;> simp at e2
  · intro g hg
    rcases List.mem_append.1 hg with hg | hg
    · exact (a g hg).1
    · exact (b g hg).1
  · intro g hg
    rcases List.mem_append.1 hg with hg | hg
    · exact (a g hg).2
    · exact (b g hg).2

/-! ## C154: bounds -/

theorem gUnitBnd_bad (a b : Rat) : (gUnitBnd a b).bad = false ↔ a ≤ b := by
  unfold gUnitBnd
  by_cases h : a = b
  · simp [h, GBnd.bad]
  · simp only [ne_eq, h, not_false_eq_true, if_true, GBnd.bad, decide_eq_false_iff_not, not_le]
    exact ⟨le_of_lt, fun h' => lt_of_le_of_ne h' h⟩

/-- minima are not above maxima, pumps have a positive maximum or none, and a bus with demand has some in every instance and period -/
structure GnBounds (c : GnCase) : Prop where
  conv : ∀ u ∈ c.conv, gnActive c u = true → u.min ≤ u.max
  hydro : ∀ u ∈ c.hydro, u.min ≤ u.max
  res : ∀ u ∈ c.res, ∀ i j, i < c.insts → j < c.periods → u.min ≤ gnResMax c u i j
  pumps : ∀ q ∈ c.pumps, 0 ≤ q.1 / c.base
  demand : c.feas = true → ∀ b ∈ c.buses, 0 < b.demand → ∀ i j, i < c.insts → j < c.periods → 0 < gnMult c b i j

theorem gnCols_bad {c : GnCase} (hopf : c.opf = true) (h : GnBounds c) : ∀ g ∈ gnCols c, ∀ b ∈ g.2, b.bad = false := by
  intro g hg b hb
  have hsome : ∀ k bs, g ∈ gSome k bs → b ∈ bs := by
    intro k bs hg
    unfold gSome at hg
    split at hg
    · simp at hg
    · simp only [List.mem_cons, List.not_mem_nil, or_false] at hg
      subst hg
      exact hb
  unfold gnCols at hg
  rw [if_pos hopf] at hg
  rcases List.mem_append.1 hg with hg | hg
  · obtain ⟨q, hq, hg⟩ := List.mem_flatMap.1 hg
    obtain ⟨hi, hj⟩ := mem_gnTimes.1 hq
    unfold gnCommon at hg
    simp only [List.mem_append] at hg
    rcases hg with (((((hg | hg) | hg) | hg) | hg) | hg) | hg
    all_goals
      have hb' := hsome _ _ hg
      obtain ⟨u, hu, rfl⟩ := List.mem_map.1 hb'
    · by_cases ha : gnActive c u = true
      · rw [if_pos ha, gUnitBnd_bad]; exact h.conv u hu ha
      · rw [if_neg ha]; rfl
    · rw [gUnitBnd_bad]; exact h.res u hu _ _ hi hj
    · rw [gUnitBnd_bad]; exact h.hydro u hu
    · rfl
    · rfl
    · rfl
    · have := h.pumps u hu
      by_cases h0 : u.1 / c.base = 0
      · simp [h0, GBnd.bad]
      · simp only [ne_eq, h0, not_false_eq_true, if_true, GBnd.bad, decide_eq_false_iff_not, not_le]
        exact lt_of_le_of_ne this (Ne.symm h0)
  · obtain ⟨q, hq, hg⟩ := List.mem_flatMap.1 hg
    obtain ⟨hi, hj, hk⟩ := mem_gnStates.1 hq
    unfold gnOpfCols gnLossCols at hg
    simp only [List.mem_append, List.mem_cons, List.not_mem_nil, or_false] at hg
    rcases hg with ((rfl | hg) | hg) | rfl
    · obtain ⟨u, _, rfl⟩ := List.mem_map.1 hb
      by_cases h1 : u.on q.2.2 = true ∧ 0 < u.rate
      · rw [if_pos h1]
        simp only [GBnd.bad, decide_eq_false_iff_not, not_le]
        linarith [h1.2]
      · rw [if_neg h1]
        split <;> rfl
    · split at hg
      · simp only [List.mem_cons, List.not_mem_nil, or_false] at hg
        subst hg
        obtain ⟨u, _, rfl⟩ := List.mem_map.1 hb
        split <;> rfl
      · simp at hg
    · split at hg
      · rename_i hf
        simp only [List.mem_cons, List.not_mem_nil, or_false] at hg
        rcases hg with rfl | rfl
        · obtain ⟨u, hu, rfl⟩ := List.mem_map.1 hb
          by_cases hd : 0 < u.demand
          · rw [if_pos hd]
            simp only [GBnd.bad, decide_eq_false_iff_not, not_le]
            exact mul_pos hd (h.demand hf u hu hd _ _ hi hj)
          · rw [if_neg hd]; rfl
        · obtain ⟨u, _, rfl⟩ := List.mem_map.1 hb
          split <;> rfl
      · simp at hg
    · obtain ⟨u, _, rfl⟩ := List.mem_map.1 hb
      split <;> rfl

theorem gnRows_bad (c : GnCase) : ∀ g ∈ gnPwc c ++ gnOpfRows c, ∀ r ∈ g.rows, r.bnd.bad = false := by
  intro g hg r hr
  rcases List.mem_append.1 hg with hg | hg
  · unfold gnPwc at hg
    simp only [List.mem_flatMap, List.mem_append, List.mem_map] at hg
    obtain ⟨q, _, (⟨u, _, rfl⟩ | ⟨u, _, rfl⟩) | ⟨u, _, rfl⟩⟩ := hg <;> (simp only [gnPieces, List.mem_map] at hr; obtain ⟨a, _, rfl⟩ := hr; rfl)
  · rcases List.mem_append.1 hg with hg | hg
    · rcases List.mem_append.1 hg with hg | hg
      · obtain ⟨q, _, rfl⟩ := List.mem_map.1 hg
        obtain ⟨b, _, rfl⟩ := List.mem_map.1 hr
        rfl
      · obtain ⟨q, _, rfl⟩ := List.mem_map.1 hg
        obtain ⟨b, _, rfl⟩ := List.mem_map.1 hr
        rfl
    · unfold gnLossRows at hg
      split at hg
      · unfold gnLosses at hg
        simp only [List.mem_append, List.mem_flatMap, List.mem_map] at hg
        rcases hg with ⟨q, _, b, _, rfl⟩ | ⟨q, _, b, _, rfl⟩ <;> (simp only [List.mem_map] at hr; obtain ⟨a, _, rfl⟩ := hr; rfl)
      · simp at hg

theorem gnRun_eq {c : GnCase} (h : GnWell c) (hi : gnInit c = .ok ()) : ∃ lp, gBuild (gnOpf c) = .ok lp ∧
    gnRun c = (do gSimplex lp; .ok (gnOpf c, lp)) := by
  obtain ⟨lp, hlp⟩ := gBuild_ok (gnOpf_good h)
  refine ⟨lp, hlp, ?_⟩
  unfold gnRun gnProb
  rw [hi, if_pos h.opf]
  simp only [bind, Except.bind]
  rw [show (⟨gnCols c, gnPwc c ++ gnOpfRows c, gnObj c (fun _ => 1) 100000000⟩ : GProb) = gnOpf c from rfl, hlp]

/-- **C154.** The optimal power flow is solved for every network with buses, branches with two different ends, pieces of cost and losses, a
branch out of service after each contingency, and bounds in order: no name is used twice, no coefficient is written twice or outside, and GLPK
accepts the bounds. -/
theorem C154_runs_partial {c : GnCase} (h : GnWell c) (hi : gnInit c = .ok ()) (hb : GnBounds c) : ∃ p lp, gnRun c = .ok (p, lp) := by
  obtain ⟨lp, hlp, hr⟩ := gnRun_eq h hi
  refine ⟨gnOpf c, lp, ?_⟩
  rw [hr, gSimplex_ok hlp (gnCols_bad h.opf hb) (gnRows_bad c)]
  rfl

theorem gSimplex_bad {p : GProb} {lp : GLp} (hb : gBuild p = .ok lp) {g : GKey × List GBnd} (hg : g ∈ p.cols) {b : GBnd} (hm : b ∈ g.2)
    (hbad : b.bad = true) : gSimplex lp = .error .assertion := by
  have h := (gBuild_iff p lp).1 hb
  unfold gSimplex
  rw [if_pos]
  rw [Bool.or_eq_true]
  left
  rw [List.any_eq_true]
  exact ⟨b, by rw [h.cols]; exact List.mem_flatMap.2 ⟨g, hg, hm⟩, hbad⟩

/-- **C154 fails** when a bus with demand has none in some period: with the relaxation on, GLPK refuses the empty range of its curtailment and the
call fails with an AssertionError. -/
theorem C154_zero_demand_violated {c : GnCase} (h : GnWell c) (hi : gnInit c = .ok ()) (hf : c.feas = true) (b : GnBus) (hb : b ∈ c.buses)
    (hd : 0 < b.demand) (i j : Nat) (hii : i < c.insts) (hj : j < c.periods) (hm : gnMult c b i j = 0) : gnRun c = .error .assertion := by
  obtain ⟨lp, hlp, hr⟩ := gnRun_eq h hi
  rw [hr, gSimplex_bad hlp (g := ((.lc, [i, j, 0]), c.buses.map (fun b => if 0 < b.demand then .bounded 0 (b.demand * gnMult c b i j) else .fixed 0)))
    (b := .bounded 0 (b.demand * gnMult c b i j))]
  · rfl
  · show _ ∈ gnCols c
    unfold gnCols
    rw [if_pos h.opf]
    refine List.mem_append_right _ (List.mem_flatMap.2 ⟨(i, j, 0), mem_gnStates.2 ⟨hii, hj, by simp⟩, ?_⟩)
    unfold gnOpfCols
    rw [if_pos hf]
    simp
  · exact List.mem_map.2 ⟨b, hb, if_pos hd⟩
  · simp [GBnd.bad, hm]

/-- **C154 fails** when a profile takes a renewable unit below its minimum: AssertionError. -/
theorem C154_low_profile_violated {c : GnCase} (h : GnWell c) (hi : gnInit c = .ok ()) (u : GnRes) (hu : u ∈ c.res) (i j : Nat) (hii : i < c.insts)
    (hj : j < c.periods) (hm : gnResMax c u i j < u.min) : gnRun c = .error .assertion := by
  obtain ⟨lp, hlp, hr⟩ := gnRun_eq h hi
  rw [hr, gSimplex_bad hlp (g := ((.resGen, [i, j]), c.res.map (fun u => gUnitBnd u.min (gnResMax c u i j)))) (b := gUnitBnd u.min (gnResMax c u i j))]
  · rfl
  · show _ ∈ gnCols c
    unfold gnCols
    refine List.mem_append_left _ (List.mem_flatMap.2 ⟨(i, j), mem_gnTimes.2 ⟨hii, hj⟩, ?_⟩)
    unfold gnCommon
    have : c.res.map (fun u => gUnitBnd u.min (gnResMax c u i j)) ≠ [] := by
      intro e
      rw [List.map_eq_nil_iff] at e
      rw [e] at hu
      simp at hu
    simp [gSome, this]
  · exact List.mem_map.2 ⟨u, hu, rfl⟩
  · cases hbad : (gUnitBnd u.min (gnResMax c u i j)).bad with
    | true => rfl
    | false => exact absurd ((gUnitBnd_bad _ _).1 hbad) (not_le.2 hm)

/-- **C152 fails** always: the economic dispatch with GLPK calls a method that does not exist, whatever the network. -/
theorem C152_violated {c : GnCase} (hopf : c.opf = false) (hi : gnInit c = .ok ()) : gnRun c = .error .attribute := by
  unfold gnRun gnProb
  rw [hi, if_neg (by simp [hopf])]
  rfl

end Pyensys
