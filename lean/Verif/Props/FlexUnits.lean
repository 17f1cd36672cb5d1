import Verif.Model.FlexUnits
import Verif.Props.AttestOptions

/-! # C231: the data of flexible units go to the units created for them -/

namespace Pyensys

/-! ## specification -/

/-- every cost of a static generator belongs to one that exists -/
def FuNet.Closed (n : FuNet) : Prop := ∀ c ∈ n.costs, c.2.2 = "sgen" → c.2.1 ∈ n.sgens.map Prod.fst

/-- the units of the buses `bs`: static generators with consecutive free labels -/
def fuNewUnits (n : FuNet) (bs : List Int) : List (Nat × Int) := (bs.zipIdx (fuFree (n.sgens.map Prod.fst))).map Prod.swap

/-- their costs, also with consecutive free labels -/
def fuNewCosts (n : FuNet) (bs : List Int) : List (Nat × Nat × String) :=
  (List.range bs.length).map (fun i => (fuFree (n.costs.map Prod.fst) + i, fuFree (n.sgens.map Prod.fst) + i, "sgen"))

/-! ## lemmas -/

theorem fuFold_ge (l : List Nat) : ∀ m, m ≤ l.foldl (fun m l => max m (l + 1)) m ∧ ∀ x ∈ l, x < l.foldl (fun m l => max m (l + 1)) m := by
  induction l with
  | nil => intro m; exact ⟨le_refl _, by simp⟩
  | cons a l ih =>
    intro m
    rw [List.foldl_cons]
    obtain ⟨h1, h2⟩ := ih (max m (a + 1))
    refine ⟨by omega, ?_⟩
    intro x hx
    rcases List.mem_cons.mp hx with rfl | hx
    · omega
    · exact h2 x hx

theorem fuFree_fresh (l : List Nat) (x : Nat) (h : x ∈ l) : x < fuFree l := (fuFold_ge l 0).2 x h

theorem fuFree_next (l : List Nat) : fuFree (l ++ [fuFree l]) = fuFree l + 1 := by
  have : fuFree (l ++ [fuFree l]) = max (fuFree l) (fuFree l + 1) := by
    conv_lhs => unfold fuFree
    rw [List.foldl_append]
    rfl
  omega

theorem fuUnit_ok (n : FuNet) (hc : n.Closed) (b : Int) (hb : b ∈ n.buses) :
    fuUnit n b = .ok ⟨n.buses, n.sgens ++ [(fuFree (n.sgens.map Prod.fst), b)], n.costs ++ [(fuFree (n.costs.map Prod.fst), fuFree (n.sgens.map Prod.fst), "sgen")]⟩ := by
  unfold fuUnit
  rw [if_pos hb, if_neg]
  intro h
  rw [List.any_eq_true] at h
  obtain ⟨c, h1, h2⟩ := h
  rw [Bool.and_eq_true, beq_iff_eq, beq_iff_eq] at h2
  have := fuFree_fresh _ _ (hc c h1 h2.2)
  omega

theorem fuCreate_loop (bs : List Int) : ∀ (n : FuNet), n.Closed → (∀ b ∈ bs, b ∈ n.buses) →
    bs.foldlM fuUnit n = .ok ⟨n.buses, n.sgens ++ fuNewUnits n bs, n.costs ++ fuNewCosts n bs⟩ := by
  induction bs with
  | nil =>
    intro n _ _
    simp [fuNewUnits, fuNewCosts, pure, Except.pure]
  | cons b bs ih =>
    intro n hc hb
    rw [List.foldlM_cons, fuUnit_ok n hc b (hb b (by simp))]
    show List.foldlM fuUnit _ bs = _
    rw [ih]
    · unfold fuNewUnits fuNewCosts
      simp only [List.map_append, List.map_cons, List.map_nil, fuFree_next, List.zipIdx_cons, List.length_cons, List.range_succ_eq_map, List.map_map, List.append_assoc, List.singleton_append, Prod.swap,
        Nat.add_zero]
      congr 4
      apply List.map_congr_left
      intro i _
      simp only [Function.comp_apply]
      rw [Nat.succ_eq_add_one, Nat.add_assoc, Nat.add_assoc, Nat.add_comm 1 i]
    · intro c h1 h2
      dsimp only at h1 h2 ⊢
      rw [List.mem_append] at h1
      rw [List.map_append, List.mem_append]
      rcases h1 with h1 | h1
      · exact Or.inl (hc c h1 h2)
      · rw [List.mem_singleton] at h1
        subst h1
        right
        simp
    · intro b' h'
      exact hb b' (by simp [h'])

theorem fuRow_iff (n : FuNet) (r : FuRow) (ps : List FuParam) : fuRow n r = .ok ps ↔ ∃ l c, fuFind n r.bus = .ok l ∧ fuFindCost n l = .ok c ∧ ps = fuPart "sgen" l fuLimits r ++ fuPart "poly_cost" c fuCosts r := by
  unfold fuRow
  simp only [except_bind_ok]
  constructor
  · rintro ⟨l, h1, c, h2, h3⟩
    injection h3 with h3
    exact ⟨l, c, h1, h2, h3.symm⟩
  · rintro ⟨l, c, h1, h2, rfl⟩
    exact ⟨l, h1, c, h2, rfl⟩

theorem fuParams_ok (n : FuNet) (rows : List FuRow) (g : FuRow → List FuParam) (h : ∀ r ∈ rows, fuRow n r = .ok (g r)) : fuParams n rows = .ok (rows.flatMap g) := by
  unfold fuParams
  rw [mapM_all (fuRow n) g rows h]
  rfl

/-! ## C231 -/

/-- one static generator for every bus of the table, with one cost each; nothing else changes -/
theorem C231_created_partial (n : FuNet) (hc : n.Closed) (column : List Int) (hb : ∀ b ∈ column, b ∈ n.buses) :
    ∃ n', fuCreate n column = .ok n' ∧ n'.sgens = n.sgens ++ fuNewUnits n column.eraseDups ∧ n'.costs = n.costs ++ fuNewCosts n column.eraseDups ∧
      (fuNewUnits n column.eraseDups).map Prod.snd = column.eraseDups ∧
      (∀ e ∈ fuNewUnits n column.eraseDups, e.1 ∉ n.sgens.map Prod.fst) ∧ (∀ c ∈ fuNewCosts n column.eraseDups, c.1 ∉ n.costs.map Prod.fst) ∧
      (fuNewCosts n column.eraseDups).map (fun c => c.2.1) = (fuNewUnits n column.eraseDups).map Prod.fst := by
  refine ⟨_, fuCreate_loop column.eraseDups n hc (fun b h => hb b (by simpa using h)), rfl, rfl, ?_, ?_, ?_, ?_⟩
  · unfold fuNewUnits
    rw [List.map_map]
    have : (Prod.snd ∘ Prod.swap : Int × Nat → Int) = Prod.fst := rfl
    rw [this, List.zipIdx_map_fst]
  · intro e he hm
    unfold fuNewUnits at he
    obtain ⟨⟨b, i⟩, h1, rfl⟩ := List.mem_map.mp he
    have h2 := fuFree_fresh _ _ hm
    have h3 := (List.mem_zipIdx h1).1
    simp only [Prod.swap] at h2
    omega
  · intro c he hm
    unfold fuNewCosts at he
    obtain ⟨i, -, rfl⟩ := List.mem_map.mp he
    have h2 := fuFree_fresh _ _ hm
    dsimp only at h2
    omega
  · unfold fuNewUnits fuNewCosts
    rw [List.map_map, List.map_map]
    have : (Prod.fst ∘ Prod.swap : Int × Nat → Nat) = Prod.snd := rfl
    rw [this, List.zipIdx_map_snd, List.range'_eq_map_range]
    rfl

theorem fuFind_new (n : FuNet) (bs : List Int) (b : Int) (hb : b ∈ bs) (hno : ∀ e ∈ n.sgens, e.2 ≠ b) (n' : FuNet) (h1 : n'.sgens = n.sgens ++ fuNewUnits n bs) :
    ∃ k, k < bs.length ∧ bs[k]? = some b ∧ fuFind n' b = .ok (fuFree (n.sgens.map Prod.fst) + k) := by
  unfold fuFind
  rw [h1, List.find?_append]
  have : n.sgens.find? (fun e => e.2 == b) = none := by
    rw [List.find?_eq_none]
    intro e he
    simpa using hno e he
  rw [this, Option.none_or]
  unfold fuNewUnits
  generalize fuFree (n.sgens.map Prod.fst) = F
  clear this h1 hno n'
  induction bs generalizing F with
  | nil => cases hb
  | cons x bs ih =>
    rw [List.zipIdx_cons, List.map_cons, List.find?_cons]
    by_cases hx : x = b
    · subst hx
      refine ⟨0, by simp, rfl, ?_⟩
      simp [Prod.swap]
    · obtain ⟨k, h1, h2, h3⟩ := ih (by simpa [Ne.symm hx] using hb) (F + 1)
      refine ⟨k + 1, by simpa using h1, by simpa using h2, ?_⟩
      have : ((x, F).swap.2 == b) = false := by simpa [Prod.swap] using hx
      rw [this]
      dsimp only
      rw [h3]
      congr 1
      omega

theorem fuFindCost_new (n : FuNet) (hc : n.Closed) (bs : List Int) (k : Nat) (hk : k < bs.length) (n' : FuNet) (h1 : n'.costs = n.costs ++ fuNewCosts n bs) :
    fuFindCost n' (fuFree (n.sgens.map Prod.fst) + k) = .ok (fuFree (n.costs.map Prod.fst) + k) := by
  unfold fuFindCost
  rw [h1, List.find?_append]
  have : n.costs.find? (fun c => c.2.1 == fuFree (n.sgens.map Prod.fst) + k && c.2.2 == "sgen") = none := by
    rw [List.find?_eq_none]
    intro c he h
    rw [Bool.and_eq_true, beq_iff_eq, beq_iff_eq] at h
    have := fuFree_fresh _ _ (hc c he h.2)
    omega
  rw [this, Option.none_or]
  unfold fuNewCosts
  generalize fuFree (n.sgens.map Prod.fst) = F
  generalize fuFree (n.costs.map Prod.fst) = C
  have : (List.map (fun i => (C + i, F + i, "sgen")) (List.range bs.length)).find? (fun c => c.2.1 == F + k && c.2.2 == "sgen") = some (C + k, F + k, "sgen") := by
    rw [List.find?_map]
    have h2 : (List.range bs.length).find? ((fun c : Nat × Nat × String => c.2.1 == F + k && c.2.2 == "sgen") ∘ fun i => (C + i, F + i, "sgen")) = some k := by
      rw [List.find?_range_eq_some]
      refine ⟨by simp, by simpa using hk, ?_⟩
      intro j hj
      simp
      omega
    rw [h2]
    rfl
  rw [this]

/-- in a case without static generators at its bus, the limits and costs of every row go to the unit that was created for its bus: the limits to the static generator, the costs to its cost; there
is one parameter for every column that the row has -/
theorem C231_targets_partial (n : FuNet) (hc : n.Closed) (column : List Int) (n' : FuNet) (hn : fuCreate n column = .ok n') (hb : ∀ b ∈ column, b ∈ n.buses)
    (rows : List FuRow) (hr : ∀ r ∈ rows, r.bus ∈ column ∧ ∀ e ∈ n.sgens, e.2 ≠ r.bus) :
    ∃ unit cost : Int → Nat, (∀ r ∈ rows, (unit r.bus, r.bus) ∈ fuNewUnits n column.eraseDups ∧ (cost r.bus, unit r.bus, "sgen") ∈ fuNewCosts n column.eraseDups) ∧
      fuParams n' rows = .ok (rows.flatMap (fun r =>
        (["max_p_mw", "min_p_mw", "max_q_mvar", "min_q_mvar"].filterMap (fun x => (r.get x).map (fun v => FuParam.mk "sgen" (unit r.bus) x v))) ++
        (["cp2_eur_per_mw2", "cp1_eur_per_mw", "cp0_eur", "cq2_eur_per_mvar2", "cq1_eur_per_mvar", "cq0_eur"].filterMap (fun x => (r.get x).map (fun v => FuParam.mk "poly_cost" (cost r.bus) x v))))) := by
  have hn2 := fuCreate_loop column.eraseDups n hc (fun b h => hb b (by simpa using h))
  unfold fuCreate at hn
  rw [hn] at hn2
  injection hn2 with hn2
  have key : ∀ b : Int, (b ∈ column ∧ ∀ e ∈ n.sgens, e.2 ≠ b) → ∃ k, k < column.eraseDups.length ∧ column.eraseDups[k]? = some b ∧ fuFind n' b = .ok (fuFree (n.sgens.map Prod.fst) + k) :=
    fun b h => fuFind_new n column.eraseDups b (by simpa using h.1) h.2 n' (by rw [hn2])
  refine ⟨fun b => (match fuFind n' b with | .ok l => l | .error _ => 0), fun b => (match fuFind n' b with | .ok l => (match fuFindCost n' l with | .ok c => c | .error _ => 0) | .error _ => 0), ?_, ?_⟩
  · intro r h
    obtain ⟨k, h1, h2, h3⟩ := key r.bus (hr r h)
    have h4 := fuFindCost_new n hc column.eraseDups k h1 n' (by rw [hn2])
    simp only [h3, h4]
    constructor
    · unfold fuNewUnits
      rw [List.mem_map]
      refine ⟨(r.bus, fuFree (n.sgens.map Prod.fst) + k), ?_, rfl⟩
      rw [List.mk_mem_zipIdx_iff_le_and_getElem?_sub]
      exact ⟨by omega, by rw [Nat.add_sub_cancel_left]; exact h2⟩
    · unfold fuNewCosts
      rw [List.mem_map]
      exact ⟨k, by simpa using h1, rfl⟩
  · apply fuParams_ok
    intro r h
    obtain ⟨k, h1, h2, h3⟩ := key r.bus (hr r h)
    have h4 := fuFindCost_new n hc column.eraseDups k h1 n' (by rw [hn2])
    rw [fuRow_iff]
    refine ⟨_, _, h3, h4, ?_⟩
    simp only [h3, h4]
    rfl

/-- violated: if the case has a static generator at the bus (a generator at a load bus), its limits and its cost are changed instead of those of the flexible unit -/
theorem C231_existing_violated (n : FuNet) (hc : n.Closed) (column : List Int) (n' : FuNet) (hn : fuCreate n column = .ok n') (hb : ∀ b ∈ column, b ∈ n.buses)
    (r : FuRow) (e : Nat × Int) (he : n.sgens.find? (fun e => e.2 == r.bus) = some e) (ps : List FuParam) (hp : fuParams n' [r] = .ok ps) :
    (∀ p ∈ ps, p.table = "sgen" → p.label = e.1) ∧ e.1 ∈ n.sgens.map Prod.fst := by
  have hn2 := fuCreate_loop column.eraseDups n hc (fun b h => hb b (by simpa using h))
  unfold fuCreate at hn
  rw [hn] at hn2
  injection hn2 with hn2
  constructor
  · unfold fuParams at hp
    cases hm : [r].mapM (fuRow n') with
    | error x => rw [hm] at hp; cases hp
    | ok w =>
      rw [hm] at hp
      have hw : w.flatten = ps := by injection hp
      rw [mapM_ok_iff] at hm
      cases hm with
      | cons h1 h2 =>
        cases h2
        obtain ⟨l, c, q1, -, q3⟩ := (fuRow_iff _ _ _).mp h1
        unfold fuFind at q1
        rw [hn2] at q1
        dsimp only at q1
        rw [List.find?_append, he, Option.some_or] at q1
        injection q1 with q1
        subst q1
        intro p hp ht
        rw [← hw, List.flatten_cons, List.flatten_nil, List.append_nil, q3, List.mem_append] at hp
        unfold fuPart at hp
        rcases hp with hp | hp
        · obtain ⟨x, -, hx⟩ := List.mem_filterMap.mp hp
          obtain ⟨v, -, rfl⟩ := Option.map_eq_some_iff.mp hx
          rfl
        · obtain ⟨x, -, hx⟩ := List.mem_filterMap.mp hp
          obtain ⟨v, -, rfl⟩ := Option.map_eq_some_iff.mp hx
          exact absurd (show ("poly_cost" : String) = "sgen" from ht) (by decide)
  · exact List.mem_map.mpr ⟨e, List.mem_of_find?_eq_some he, rfl⟩

/-- violated: if that static generator has no cost, the data of the node cannot be used at all -/
theorem C231_nocost_violated (n : FuNet) (hc : n.Closed) (column : List Int) (n' : FuNet) (hn : fuCreate n column = .ok n') (hb : ∀ b ∈ column, b ∈ n.buses)
    (r : FuRow) (e : Nat × Int) (he : n.sgens.find? (fun e => e.2 == r.bus) = some e) (hno : ∀ c ∈ n.costs, ¬ (c.2.1 = e.1 ∧ c.2.2 = "sgen")) :
    fuParams n' [r] = .error .index := by
  have hn2 := fuCreate_loop column.eraseDups n hc (fun b h => hb b (by simpa using h))
  unfold fuCreate at hn
  rw [hn] at hn2
  injection hn2 with hn2
  have h1 : fuFind n' r.bus = .ok e.1 := by
    unfold fuFind
    rw [hn2]
    dsimp only
    rw [List.find?_append, he, Option.some_or]
  have h2 : fuFindCost n' e.1 = .error .index := by
    unfold fuFindCost
    have : n'.costs.find? (fun c => c.2.1 == e.1 && c.2.2 == "sgen") = none := by
      rw [List.find?_eq_none, hn2]
      intro c hm h
      rw [Bool.and_eq_true, beq_iff_eq, beq_iff_eq] at h
      dsimp only at hm
      rw [List.mem_append] at hm
      rcases hm with hm | hm
      · exact hno c hm h
      · unfold fuNewCosts at hm
        obtain ⟨i, -, rfl⟩ := List.mem_map.mp hm
        have := fuFree_fresh _ _ (List.mem_map.mpr ⟨e, List.mem_of_find?_eq_some he, rfl⟩ : e.1 ∈ n.sgens.map Prod.fst)
        have h3 := h.1
        dsimp only at h3
        omega
    rw [this]
  have h3 : fuRow n' r = .error .index := by
    unfold fuRow
    rw [h1]
    show (fuFindCost n' e.1 >>= _) = _
    rw [h2]
    rfl
  unfold fuParams
  rw [List.mapM_cons, h3]
  rfl

/-- violated: after a power flow with pypower the costs of the units are not found, so that the next node needs a new network -/
theorem C231_again_violated (n : FuNet) (r : FuRow) (rows : List FuRow) (ps : List FuParam) : fuParams (fuSolved n) (r :: rows) ≠ .ok ps := by
  intro h
  unfold fuParams at h
  cases hm : (r :: rows).mapM (fuRow (fuSolved n)) with
  | error x => rw [hm] at h; cases h
  | ok w =>
    rw [mapM_ok_iff] at hm
    cases hm with
    | cons h1 h2 =>
      obtain ⟨l, c, -, q2, -⟩ := (fuRow_iff _ _ _).mp h1
      unfold fuFindCost at q2
      have : (fuSolved n).costs.find? (fun c => c.2.1 == l && c.2.2 == "sgen") = none := by
        rw [List.find?_eq_none]
        intro c hm h
        rw [Bool.and_eq_true, beq_iff_eq, beq_iff_eq] at h
        unfold fuSolved at hm
        obtain ⟨a, -, rfl⟩ := List.mem_map.mp hm
        exact absurd (show ("gen" : String) = "sgen" from h.2) (by decide)
      rw [this] at q2
      cases q2

/-- a case with a static generator at bus 5; flexible units at buses 2 and 3 -/
def fuNet0 : FuNet := ⟨[1, 2, 3, 5], [(0, 5)], [(0, 0, "ext_grid"), (1, 0, "sgen")]⟩
def fuRow0 : FuRow := ⟨3, fun x => if x = "max_p_mw" then some 10 else if x = "cp1_eur_per_mw" then some 7 else none⟩

theorem C231_witness : fuNet0.Closed ∧ ∃ n', fuCreate fuNet0 [2, 3, 2] = .ok n' ∧ n'.sgens = [(0, 5), (1, 2), (2, 3)] ∧
    fuParams n' [fuRow0] = .ok [⟨"sgen", 2, "max_p_mw", 10⟩, ⟨"poly_cost", 3, "cp1_eur_per_mw", 7⟩] ∧
    fuParams n' [⟨5, fuRow0.get⟩] = .ok [⟨"sgen", 0, "max_p_mw", 10⟩, ⟨"poly_cost", 1, "cp1_eur_per_mw", 7⟩] := by
  refine ⟨?_, _, rfl, by decide, by decide +kernel, by decide +kernel⟩
  intro c hc
  revert c
  decide

end Pyensys
