import Verif.Model.Services
import Verif.Lemmas.Engine
import Verif.Props.AttestOptions
import Mathlib.Tactic.Linarith
import Mathlib.Tactic.Ring

/-!
# Services, uncertain renewables and curtailment (C217-C219)
-/

namespace Pyensys

/-! ## specification -/

/-- there is a unit that may provide the ancillary services that are asked for -/
def SvCanAnc (d : SvData) : Prop := d.ancillary ≠ none ∧ ((svTrue d.convA = true ∧ 0 < d.noCon) ∨ (svTrue d.hydroA = true ∧ 0 < d.noHydro))

/-- there are uncertain renewable units with the uncertainty `u` -/
def SvUncertain (d : SvData) (u : Rat) : Prop := 0 < d.noRES ∧ d.uncertainty.head? = some (some u)

/-- there is a unit that may support renewables -/
def SvCanSup (d : SvData) : Prop := (svTrue d.convR = true ∧ 0 < d.noCon) ∨ (svTrue d.hydroR = true ∧ 0 < d.noHydro)

/-- the settings are complete: the number of conventional units is given if only they provide ancillary services, and there is an uncertainty if there are renewable units -/
def SvComplete (d : SvData) : Prop :=
  (d.ancillary ≠ none → svTrue d.convA = true → svTrue d.hydroA = false → d.convNumber = some d.noCon) ∧ (0 < d.noRES → d.uncertainty ≠ [])

/-- the curtailment that relieves an instance -/
def svRelief (c : SvCase) (v : SvVals) (xh : Nat) : Rat := if c.feasibility = true then v.fea xh else 0

instance (d : SvData) : Decidable (SvCanAnc d) := by unfold SvCanAnc; infer_instance
instance (d : SvData) : Decidable (SvCanSup d) := by unfold SvCanSup; infer_instance

/-- the ancillary services that an instance needs: a share of its production, less the curtailment -/
def svNeedA (c : SvCase) (v : SvVals) (a : Rat) (xh : Nat) : Rat := max 0 (a * svGenAll c.data v.gen xh - svRelief c v xh)

/-- the support of renewables that an instance needs: what they produce beyond the certain part of what is available, less the curtailment -/
def svNeedR (c : SvCase) (v : SvVals) (u : Rat) (xh : Nat) : Rat := max 0 (svGenRES c.data v.gen xh - v.avail xh * (1 - u) - svRelief c v xh)

/-- what a dispatch has to satisfy in an instance: the production covers the services that are needed, and uncertain renewables without support produce at most the certain part -/
def SvNeeds (c : SvCase) (v : SvVals) (xh : Nat) : Prop :=
  (∀ a, c.data.ancillary = some a → SvCanAnc c.data → (¬ ∃ u, SvUncertain c.data u ∧ SvCanSup c.data) → svNeedA c v a xh ≤ svGenAll c.data v.gen xh) ∧
  (∀ u, SvUncertain c.data u → SvCanSup c.data → ¬ SvCanAnc c.data → svNeedR c v u xh ≤ svGenAll c.data v.gen xh) ∧
  (∀ a u, c.data.ancillary = some a → SvCanAnc c.data → SvUncertain c.data u → SvCanSup c.data → svNeedA c v a xh + svNeedR c v u xh ≤ svGenAll c.data v.gen xh) ∧
  (∀ u, SvUncertain c.data u → ¬ SvCanSup c.data → svGenRES c.data v.gen xh ≤ v.avail xh * (1 - u) + svRelief c v xh)

/-! ## the sets of units -/

theorem svUnc_iff {d : SvData} (h : 0 < d.noRES → d.uncertainty ≠ []) : ∃ u, svUnc d = .ok u ∧ ∀ q, u = some q ↔ SvUncertain d q := by
  unfold svUnc SvUncertain
  by_cases h0 : d.noRES = 0
  · rw [if_pos h0]
    refine ⟨none, rfl, ?_⟩
    intro q
    simp [h0]
  · rw [if_neg h0]
    have hp : 0 < d.noRES := Nat.pos_of_ne_zero h0
    match hu : d.uncertainty, h hp with
    | x :: xs, _ =>
      refine ⟨x, rfl, ?_⟩
      intro q
      simp [hp]

theorem svHydro_length (d : SvData) : (svHydro d).length = d.noHydro := by
  unfold svHydro; simp

theorem svConv_self (n : Nat) : svConv n n = .ok (List.range n) := by
  unfold svConv
  rw [if_pos (le_refl n)]
  simp

/-- the lists of units, and the number of services -/
theorem svInit_spec {d : SvData} (h : SvComplete d) : ∃ s, svInit d = .ok s ∧ (0 < s.anc.length ↔ SvCanAnc d) ∧
    (0 < s.sup.length ↔ (∃ u, SvUncertain d u) ∧ SvCanSup d) ∧ (∀ q, s.unc = some q ↔ SvUncertain d q) ∧
    s.noSer ≤ 2 ∧ (0 < s.anc.length → 1 ≤ s.noSer) ∧ (0 < s.sup.length → 1 ≤ s.noSer) ∧ (0 < s.anc.length → 0 < s.sup.length → s.noSer = 2) := by
  obtain ⟨u, hu, hu2⟩ := svUnc_iff h.2
  -- ancillary services
  have hA : ∃ a, svAncillary d = .ok a ∧ (0 < a.1.length ↔ SvCanAnc d) ∧ a.2 ≤ 1 ∧ (0 < a.1.length → a.2 = 1) := by
    unfold svAncillary SvCanAnc
    cases ha : d.ancillary with
    | none => exact ⟨([], 0), rfl, by simp, by simp, by simp⟩
    | some a =>
      dsimp only
      cases hc : svTrue d.convA
      · cases hh : svTrue d.hydroA
        · exact ⟨([], 0), by simp, by simp, by simp, by simp⟩
        · exact ⟨(svHydro d, 1), by simp, by simp [svHydro_length], by simp, by simp⟩
      · cases hh : svTrue d.hydroA
        · have hn := h.1 (by rw [ha]; simp) hc hh
          refine ⟨(List.range d.noCon, 1), ?_, by simp, by simp, by simp⟩
          have : svConvOnly d = .ok (List.range d.noCon) := by
            unfold svConvOnly
            rw [hn]
            exact svConv_self _
          rw [this]
          rfl
        · exact ⟨(List.range d.noCon ++ svHydro d, 1), by simp, by simp [svHydro_length], by simp, by simp⟩
  have hR : (0 < (svSupport d u).1.length ↔ (∃ q, SvUncertain d q) ∧ SvCanSup d) ∧ (svSupport d u).2 ≤ 1 ∧ (0 < (svSupport d u).1.length → (svSupport d u).2 = 1) := by
    unfold svSupport SvCanSup
    cases u with
    | none =>
      have hno : ¬ ∃ q, SvUncertain d q := by
        rintro ⟨q, hq⟩
        have := (hu2 q).2 hq
        cases this
      simp [hno]
    | some q =>
      have hyes : ∃ q, SvUncertain d q := ⟨q, (hu2 q).1 rfl⟩
      dsimp only
      cases hc : svTrue d.convR
      · cases hh : svTrue d.hydroR
        · simp
        · simp [svHydro_length, hyes]
      · cases hh : svTrue d.hydroR
        · simp [hyes]
        · simp [svHydro_length, hyes]
  obtain ⟨a, ha, ha1, ha2, ha3⟩ := hA
  obtain ⟨hr1, hr2, hr3⟩ := hR
  refine ⟨⟨a.1, (svSupport d u).1, a.2 + (svSupport d u).2, u⟩, ?_, ha1, hr1, hu2, ?_, ?_, ?_, ?_⟩
  · unfold svInit
    rw [ha]
    show (svUnc d >>= _) = _
    rw [hu]
    rfl
  · show a.2 + (svSupport d u).2 ≤ 2
    omega
  · intro hp
    have := ha3 hp
    show 1 ≤ a.2 + (svSupport d u).2
    omega
  · intro hp
    have := hr3 hp
    show 1 ≤ a.2 + (svSupport d u).2
    omega
  · intro hp hp2
    have := ha3 hp
    have := hr3 hp2
    show a.2 + (svSupport d u).2 = 2
    omega

theorem svFea_ok {c : SvCase} (hf : c.feasibility = true → 0 < c.noFea) (v : SvVals) {xh : Nat} (h : xh < c.noh) :
    svFea c.feasibility c.noh c.noFea v.fea xh = .ok (svRelief c v xh) := by
  unfold svFea svRelief
  cases hb : c.feasibility
  · rfl
  · have : c.noh * 1 ≤ c.noh * c.noFea := Nat.mul_le_mul_left _ (hf hb)
    rw [if_pos rfl, if_pos rfl, if_pos (by omega)]

theorem rows_two (a b c d : Rat) : (∀ r ∈ [(a, b), (c, d)], r.2 ≤ r.1) ↔ b ≤ a ∧ d ≤ c := by
  simp

theorem rows_one (a b : Rat) : (∀ r ∈ [(a, b)], r.2 ≤ r.1) ↔ b ≤ a := by
  simp

/-- the constraints of an instance, one by one -/
theorem svRows_iff {c : SvCase} {s : SvSets} (hf : c.feasibility = true → 0 < c.noFea) (v : SvVals) (serv : Nat → Rat) {xh : Nat} (h : xh < c.noh) :
    (∃ rows, svRows c s v serv xh = .ok rows ∧ ∀ r ∈ rows, r.2 ≤ r.1) ↔
      (0 < s.anc.length + s.sup.length → ((List.range s.noSer).map (fun xs => serv (xh * s.noSer + xs))).sum ≤ svGenAll c.data v.gen xh) ∧
      (∀ a, c.data.ancillary = some a → 0 < s.anc.length → serv (xh * s.noSer) ≤ svGenAll c.data v.gen xh ∧ a * svGenAll c.data v.gen xh - svRelief c v xh ≤ serv (xh * s.noSer)) ∧
      (∀ u, s.unc = some u → 0 < s.sup.length → serv (s.noSer * (xh + 1) - 1) ≤ svGenAll c.data v.gen xh ∧
        svGenRES c.data v.gen xh ≤ v.avail xh * (1 - u) + svRelief c v xh + serv (s.noSer * (xh + 1) - 1)) ∧
      (∀ u, s.unc = some u → s.sup.length = 0 → svGenRES c.data v.gen xh ≤ v.avail xh * (1 - u) + svRelief c v xh) := by
  have hA : ∃ a, svRowsA c s v serv xh = .ok a ∧ ((∀ r ∈ a, r.2 ≤ r.1) ↔
      ∀ a, c.data.ancillary = some a → 0 < s.anc.length → serv (xh * s.noSer) ≤ svGenAll c.data v.gen xh ∧ a * svGenAll c.data v.gen xh - svRelief c v xh ≤ serv (xh * s.noSer)) := by
    unfold svRowsA
    cases ha : c.data.ancillary with
    | none => exact ⟨[], rfl, by simp⟩
    | some a =>
      dsimp only
      by_cases hp : s.anc.length > 0
      · rw [if_pos hp, svFea_ok hf v h]
        refine ⟨_, rfl, ?_⟩
        rw [rows_two]
        constructor
        · intro hr a' ha' _
          injection ha' with ha'
          rw [← ha']
          exact hr
        · intro hr
          exact hr a rfl hp
      · rw [if_neg hp]
        refine ⟨[], rfl, ?_⟩
        constructor
        · intro _ a' _ hp'
          exact absurd hp' hp
        · intro _ r hr
          cases hr
  have hR : ∃ a, svRowsR c s v serv xh = .ok a ∧ ((∀ r ∈ a, r.2 ≤ r.1) ↔
      ∀ u, s.unc = some u → 0 < s.sup.length → serv (s.noSer * (xh + 1) - 1) ≤ svGenAll c.data v.gen xh ∧
        svGenRES c.data v.gen xh ≤ v.avail xh * (1 - u) + svRelief c v xh + serv (s.noSer * (xh + 1) - 1)) := by
    unfold svRowsR
    cases ha : s.unc with
    | none => exact ⟨[], rfl, by simp⟩
    | some a =>
      dsimp only
      by_cases hp : s.sup.length > 0
      · rw [if_pos hp, svFea_ok hf v h]
        refine ⟨_, rfl, ?_⟩
        rw [rows_two]
        constructor
        · intro hr a' ha' _
          injection ha' with ha'
          rw [← ha']
          exact hr
        · intro hr
          exact hr a rfl hp
      · rw [if_neg hp]
        refine ⟨[], rfl, ?_⟩
        constructor
        · intro _ a' _ hp'
          exact absurd hp' hp
        · intro _ r hr
          cases hr
  have hZ : ∃ a, svRows0 c s v xh = .ok a ∧ ((∀ r ∈ a, r.2 ≤ r.1) ↔
      ∀ u, s.unc = some u → s.sup.length = 0 → svGenRES c.data v.gen xh ≤ v.avail xh * (1 - u) + svRelief c v xh) := by
    unfold svRows0
    cases ha : s.unc with
    | none => exact ⟨[], rfl, by simp⟩
    | some a =>
      dsimp only
      by_cases hp : s.sup.length = 0
      · rw [if_pos hp, svFea_ok hf v h]
        refine ⟨_, rfl, ?_⟩
        rw [rows_one]
        constructor
        · intro hr a' ha' _
          injection ha' with ha'
          rw [← ha']
          exact hr
        · intro hr
          exact hr a rfl hp
      · rw [if_neg hp]
        refine ⟨[], rfl, ?_⟩
        constructor
        · intro _ a' _ hp'
          exact absurd hp' hp
        · intro _ r hr
          cases hr
  have hS : (∀ r ∈ svRowsS c s v serv xh, r.2 ≤ r.1) ↔
      (0 < s.anc.length + s.sup.length → ((List.range s.noSer).map (fun xs => serv (xh * s.noSer + xs))).sum ≤ svGenAll c.data v.gen xh) := by
    unfold svRowsS
    by_cases hp : s.anc.length + s.sup.length > 0
    · rw [if_pos hp, rows_one]
      exact ⟨fun hr _ => hr, fun hr => hr hp⟩
    · rw [if_neg hp]
      constructor
      · intro _ hp'
        exact absurd hp' hp
      · intro _ r hr
        cases hr
  obtain ⟨a, ha, ha2⟩ := hA
  obtain ⟨r, hr, hr2⟩ := hR
  obtain ⟨z, hz, hz2⟩ := hZ
  have hrows : svRows c s v serv xh = .ok (svRowsS c s v serv xh ++ a ++ r ++ z) := by
    unfold svRows
    rw [ha]
    show (svRowsR c s v serv xh >>= _) = _
    rw [hr]
    show (svRows0 c s v xh >>= _) = _
    rw [hz]
    rfl
  rw [← ha2, ← hr2, ← hz2, ← hS]
  constructor
  · rintro ⟨rows, h1, h2⟩
    rw [hrows] at h1
    injection h1 with h1
    subst h1
    refine ⟨?_, ?_, ?_, ?_⟩ <;> intro q hq <;> exact h2 q (by simp [hq])
  · rintro ⟨h1, h2, h3, h4⟩
    refine ⟨_, hrows, ?_⟩
    intro q hq
    rcases List.mem_append.1 hq with hq | hq
    · rcases List.mem_append.1 hq with hq | hq
      · rcases List.mem_append.1 hq with hq | hq
        · exact h1 q hq
        · exact h2 q hq
      · exact h3 q hq
    · exact h4 q hq

theorem sum_two (noSer : Nat) (h : noSer = 2) (f : Nat → Rat) : ((List.range noSer).map f).sum = f 0 + f 1 := by
  subst h
  simp [List.range_succ]

theorem sum_ge (noSer : Nat) (f : Nat → Rat) (hf : ∀ i, 0 ≤ f i) (k : Nat) (hk : k < noSer) : f k ≤ ((List.range noSer).map f).sum := by
  apply List.single_le_sum
  · intro x hx
    obtain ⟨i, _, rfl⟩ := List.mem_map.1 hx
    exact hf i
  · exact List.mem_map.2 ⟨k, List.mem_range.2 hk, rfl⟩

theorem svUncertain_unique {d : SvData} {u u' : Rat} (h : SvUncertain d u) (h' : SvUncertain d u') : u = u' := by
  have := h.2.symm.trans h'.2
  injection this with this
  injection this

theorem relief_nonneg {c : SvCase} {v : SvVals} (hfea : ∀ i, 0 ≤ v.fea i) (xh : Nat) : 0 ≤ svRelief c v xh := by
  unfold svRelief
  split
  · exact hfea xh
  · exact le_refl 0

/-- the services that are used as a witness: what is needed, at the position of the service -/
def svServ (s : SvSets) (needA needR : Nat → Rat) (i : Nat) : Rat :=
  if 0 < s.anc.length ∧ i % s.noSer = 0 then needA (i / s.noSer)
  else if 0 < s.sup.length ∧ i % s.noSer = s.noSer - 1 then needR (i / s.noSer) else 0

/-- C217: exactly the dispatches are admitted whose production covers the services that are needed, in every instance -/
theorem C217_exact_partial (c : SvCase) (hd : SvComplete c.data) (hf : c.feasibility = true → 0 < c.noFea) (v : SvVals) (hgen : ∀ i, 0 ≤ v.gen i) :
    SvAdmitted c v ↔ ∀ xh < c.noh, SvNeeds c v xh := by
  obtain ⟨s, hs, hA, hR, hU, h2, hA1, hR1, hAR⟩ := svInit_spec hd
  have hG : ∀ xh, 0 ≤ svGenAll c.data v.gen xh := by
    intro xh
    unfold svGenAll
    apply List.sum_nonneg
    intro x hx
    obtain ⟨i, _, rfl⟩ := List.mem_map.1 hx
    exact hgen _
  constructor
  · rintro ⟨s', hs', serv, hpos, hok⟩
    rw [hs] at hs'
    injection hs' with hs'
    subst hs'
    intro xh hxh
    obtain ⟨h1, hrA, hrR, hr0⟩ := (svRows_iff hf v serv hxh).1 (hok xh hxh)
    refine ⟨?_, ?_, ?_, ?_⟩
    · intro a ha hca _
      have := hrA a ha (hA.2 hca)
      unfold svNeedA
      exact max_le (hG xh) (by linarith)
    · intro u hu hcs _
      have := hrR u ((hU u).2 hu) (hR.2 ⟨⟨u, hu⟩, hcs⟩)
      unfold svNeedR
      exact max_le (hG xh) (by linarith)
    · intro a u ha hca hu hcs
      have p1 := hA.2 hca
      have p2 := hR.2 ⟨⟨u, hu⟩, hcs⟩
      have e := hAR p1 p2
      have hrA := hrA a ha p1
      have hrR := hrR u ((hU u).2 hu) p2
      have h1 := h1 (by omega)
      rw [sum_two s.noSer e, Nat.add_zero] at h1
      have e2 : s.noSer * (xh + 1) - 1 = xh * s.noSer + 1 := by rw [e]; omega
      rw [e2] at hrR
      have m1 : svNeedA c v a xh ≤ serv (xh * s.noSer) := max_le (hpos _) hrA.2
      have m2 : svNeedR c v u xh ≤ serv (xh * s.noSer + 1) := max_le (hpos _) (by linarith [hrR.2])
      linarith
    · intro u hu hcs
      refine hr0 u ((hU u).2 hu) ?_
      by_contra hne
      exact hcs (hR.1 (by omega)).2
  · intro hn
    have hexA : ∃ needA : Nat → Rat, (∀ xh, 0 ≤ needA xh) ∧ ∀ a, c.data.ancillary = some a → needA = svNeedA c v a := by
      cases ha : c.data.ancillary with
      | none => exact ⟨fun _ => 0, fun _ => le_refl 0, fun a h => by cases h⟩
      | some a => exact ⟨svNeedA c v a, fun _ => le_max_left _ _, fun a' h => by injection h with h; rw [h]⟩
    have hexR : ∃ needR : Nat → Rat, (∀ xh, 0 ≤ needR xh) ∧ ∀ u, SvUncertain c.data u → needR = svNeedR c v u := by
      by_cases hu : ∃ u, SvUncertain c.data u
      · obtain ⟨u, hu⟩ := hu
        exact ⟨svNeedR c v u, fun _ => le_max_left _ _, fun u' h => by rw [svUncertain_unique h hu]⟩
      · exact ⟨fun _ => 0, fun _ => le_refl 0, fun u h => absurd ⟨u, h⟩ hu⟩
    obtain ⟨needA, hna, hna2⟩ := hexA
    obtain ⟨needR, hnr, hnr2⟩ := hexR
    refine ⟨s, hs, svServ s needA needR, ?_, ?_⟩
    · intro i
      unfold svServ
      split
      · exact hna _
      · split
        · exact hnr _
        · exact le_refl 0
    · intro xh hxh
      obtain ⟨n1, n2, n3, n4⟩ := hn xh hxh
      -- the values of the services of the instance
      have hval : ∀ k, k < s.noSer → svServ s needA needR (xh * s.noSer + k) =
          if 0 < s.anc.length ∧ k = 0 then needA xh else if 0 < s.sup.length ∧ k = s.noSer - 1 then needR xh else 0 := by
        intro k hk
        unfold svServ
        have e1 : (xh * s.noSer + k) % s.noSer = k := by
          rw [Nat.mul_comm, Nat.mul_add_mod, Nat.mod_eq_of_lt hk]
        have e2 : (xh * s.noSer + k) / s.noSer = xh := by
          rw [Nat.mul_comm, Nat.mul_add_div (by omega), Nat.div_eq_of_lt hk, Nat.add_zero]
        rw [e1, e2]
      have hvA : 0 < s.anc.length → svServ s needA needR (xh * s.noSer) = needA xh := by
        intro hp
        have := hval 0 (by have := hA1 hp; omega)
        rw [Nat.add_zero] at this
        rw [this, if_pos ⟨hp, rfl⟩]
      have hvR : 0 < s.sup.length → svServ s needA needR (s.noSer * (xh + 1) - 1) = needR xh := by
        intro hp
        have h1 := hR1 hp
        have e : s.noSer * (xh + 1) - 1 = xh * s.noSer + (s.noSer - 1) := by
          rw [Nat.mul_add, Nat.mul_one, Nat.mul_comm]
          omega
        rw [e, hval (s.noSer - 1) (by omega)]
        by_cases hq : 0 < s.anc.length
        · have := hAR hq hp
          rw [if_neg (by rintro ⟨_, h⟩; omega), if_pos ⟨hp, rfl⟩]
        · rw [if_neg (by rintro ⟨h, _⟩; exact hq h), if_pos ⟨hp, rfl⟩]
      -- the needs that are covered
      have hcov : (0 < s.anc.length → needA xh ≤ svGenAll c.data v.gen xh) ∧ (0 < s.sup.length → needR xh ≤ svGenAll c.data v.gen xh) ∧
          (0 < s.anc.length → 0 < s.sup.length → needA xh + needR xh ≤ svGenAll c.data v.gen xh) := by
        have hboth : 0 < s.anc.length → 0 < s.sup.length → needA xh + needR xh ≤ svGenAll c.data v.gen xh := by
          intro p1 p2
          have hca := hA.1 p1
          obtain ⟨⟨u, hu⟩, hcs⟩ := hR.1 p2
          obtain ⟨a, ha⟩ := Option.ne_none_iff_exists'.1 hca.1
          rw [hna2 a ha, hnr2 u hu]
          exact n3 a u ha hca hu hcs
        refine ⟨?_, ?_, hboth⟩
        · intro p1
          by_cases p2 : 0 < s.sup.length
          · have := hboth p1 p2
            have := hnr xh
            linarith
          · have hca := hA.1 p1
            obtain ⟨a, ha⟩ := Option.ne_none_iff_exists'.1 hca.1
            rw [hna2 a ha]
            exact n1 a ha hca (fun ⟨u, hu, hcs⟩ => p2 (hR.2 ⟨⟨u, hu⟩, hcs⟩))
        · intro p2
          by_cases p1 : 0 < s.anc.length
          · have := hboth p1 p2
            have := hna xh
            linarith
          · obtain ⟨⟨u, hu⟩, hcs⟩ := hR.1 p2
            rw [hnr2 u hu]
            exact n2 u hu hcs (fun h => p1 (hA.2 h))
      refine (svRows_iff hf v _ hxh).2 ⟨?_, ?_, ?_, ?_⟩
      · intro hp
        -- at most two services
        have hsum : ((List.range s.noSer).map (fun xs => svServ s needA needR (xh * s.noSer + xs))).sum =
            (if 0 < s.anc.length then needA xh else 0) + (if 0 < s.sup.length then needR xh else 0) := by
          have hcases : s.noSer = 1 ∨ s.noSer = 2 := by
            rcases Nat.lt_or_ge 0 s.anc.length with h | h
            · have := hA1 h; omega
            · have := hR1 (by omega); omega
          rcases hcases with e | e
          · rw [e]
            show svServ s needA needR (xh * 1 + 0) + 0 = _
            have := hval 0 (by omega)
            rw [e] at this
            rw [this, add_zero]
            by_cases p1 : 0 < s.anc.length
            · have p2 : ¬ 0 < s.sup.length := fun p2 => by have := hAR p1 p2; omega
              rw [if_pos ⟨p1, rfl⟩, if_pos p1, if_neg p2, add_zero]
            · rw [if_neg (fun h => p1 h.1), if_neg p1, zero_add]
              have p2 : 0 < s.sup.length := by omega
              rw [if_pos ⟨p2, rfl⟩, if_pos p2]
          · rw [sum_two s.noSer e, hval 0 (by omega), hval 1 (by omega), e]
            by_cases p1 : 0 < s.anc.length <;> by_cases p2 : 0 < s.sup.length <;> simp [p1, p2]
        rw [hsum]
        by_cases p1 : 0 < s.anc.length
        · by_cases p2 : 0 < s.sup.length
          · rw [if_pos p1, if_pos p2]
            exact hcov.2.2 p1 p2
          · rw [if_pos p1, if_neg p2, add_zero]
            exact hcov.1 p1
        · have p2 : 0 < s.sup.length := by omega
          rw [if_neg p1, if_pos p2, zero_add]
          exact hcov.2.1 p2
      · intro a ha hp
        rw [hvA hp]
        refine ⟨hcov.1 hp, ?_⟩
        rw [hna2 a ha]
        exact le_max_right _ _
      · intro u hu hp
        rw [hvR hp]
        refine ⟨hcov.2.1 hp, ?_⟩
        rw [hnr2 u ((hU u).1 hu)]
        have : svGenRES c.data v.gen xh - v.avail xh * (1 - u) - svRelief c v xh ≤ svNeedR c v u xh := le_max_right _ _
        linarith
      · intro u hu hp
        have hu' := (hU u).1 hu
        refine n4 u hu' ?_
        intro hcs
        have := hR.2 ⟨⟨u, hu'⟩, hcs⟩
        omega

theorem genRES_le {d : SvData} {gen : Nat → Rat} (hgen : ∀ i, 0 ≤ gen i) (xh : Nat) : 0 ≤ svGenRES d gen xh ∧ svGenRES d gen xh ≤ svGenAll d gen xh := by
  have hsum : ∀ (n : Nat) (f : Nat → Rat), (∀ i, 0 ≤ f i) → 0 ≤ ((List.range n).map f).sum := by
    intro n f hf
    apply List.sum_nonneg
    intro x hx
    obtain ⟨i, _, rfl⟩ := List.mem_map.1 hx
    exact hf i
  refine ⟨hsum _ _ (fun i => hgen _), ?_⟩
  unfold svGenRES svGenAll svNoGen
  rw [show List.range (d.noCon + d.noHydro + d.noRES) = List.range (d.noCon + d.noHydro) ++ (List.range d.noRES).map (fun x => d.noCon + d.noHydro + x) from List.range_add, List.map_append, List.sum_append, List.map_map]
  have := hsum (d.noCon + d.noHydro) (fun x => gen (xh * (d.noCon + d.noHydro + d.noRES) + x)) (fun i => hgen _)
  have e : ((List.range d.noRES).map ((fun x => gen (xh * (d.noCon + d.noHydro + d.noRES) + x)) ∘ fun x => d.noCon + d.noHydro + x)).sum =
      ((List.range d.noRES).map (fun x => gen (xh * (d.noCon + d.noHydro + d.noRES) + (d.noCon + d.noHydro + x)))).sum := rfl
  rw [e]
  linarith

/-- C217: the units listed as providers of a service are those of the classes that provide it: the conventional units have the first numbers, the hydropower units those after them -/
theorem C217_units_partial (d : SvData) (s : SvSets) (h : svInit d = .ok s) (hd : SvComplete d) :
    (∀ x, x ∈ s.anc ↔ d.ancillary ≠ none ∧ ((svTrue d.convA = true ∧ x < d.noCon) ∨ (svTrue d.hydroA = true ∧ d.noCon ≤ x ∧ x < d.noCon + d.noHydro))) ∧
    (∀ x, x ∈ s.sup ↔ s.unc ≠ none ∧ ((svTrue d.convR = true ∧ x < d.noCon) ∨ (svTrue d.hydroR = true ∧ d.noCon ≤ x ∧ x < d.noCon + d.noHydro))) := by
  have hy : ∀ x, x ∈ svHydro d ↔ d.noCon ≤ x ∧ x < d.noCon + d.noHydro := by
    intro x
    unfold svHydro
    simp only [List.mem_map, List.mem_range]
    constructor
    · rintro ⟨a, ha, rfl⟩; omega
    · rintro ⟨h1, h2⟩; exact ⟨x - d.noCon, by omega, by omega⟩
  unfold svInit at h
  obtain ⟨a, h1, h⟩ := except_bind_ok.1 h
  obtain ⟨u, h2, h⟩ := except_bind_ok.1 h
  injection h with h
  subst h
  constructor
  · intro x
    dsimp only
    unfold svAncillary at h1
    cases hq : d.ancillary with
    | none =>
      rw [hq] at h1
      injection h1 with h1
      subst h1
      simp
    | some q =>
      rw [hq] at h1
      dsimp only at h1
      by_cases hc : svTrue d.convA = true
      · rw [if_pos hc] at h1
        by_cases hh : svTrue d.hydroA = true
        · rw [if_pos hh] at h1
          injection h1 with h1
          subst h1
          simp [hc, hh, hy]
        · rw [if_neg hh] at h1
          obtain ⟨l, h3, h1⟩ := except_bind_ok.1 h1
          injection h1 with h1
          subst h1
          have hh' : svTrue d.hydroA = false := by simpa using hh
          unfold svConvOnly at h3
          rw [hd.1 (by rw [hq]; simp) hc hh'] at h3
          dsimp only [svConv] at h3
          rw [if_pos (Nat.le_refl _)] at h3
          injection h3 with h3
          subst h3
          simp [hc, hh']
      · rw [if_neg hc] at h1
        have hc' : svTrue d.convA = false := by simpa using hc
        by_cases hh : svTrue d.hydroA = true
        · rw [if_pos hh] at h1
          injection h1 with h1
          subst h1
          simp [hc', hh, hy]
        · rw [if_neg hh] at h1
          injection h1 with h1
          subst h1
          have hh' : svTrue d.hydroA = false := by simpa using hh
          simp [hc', hh']
  · intro x
    dsimp only
    unfold svSupport
    cases u with
    | none => simp
    | some q =>
      dsimp only
      by_cases hc : svTrue d.convR = true <;> by_cases hh : svTrue d.hydroR = true <;> simp [hc, hh, hy]

/-- C217, violated: a requirement of ancillary services of at most the whole production excludes nothing: every dispatch is admitted, also those in which no unit that may provide the services produces anything -/
theorem C217_violated_void (c : SvCase) (hd : SvComplete c.data) (hf : c.feasibility = true → 0 < c.noFea) (v : SvVals) (hgen : ∀ i, 0 ≤ v.gen i) (hfea : ∀ i, 0 ≤ v.fea i)
    (a : Rat) (ha : c.data.ancillary = some a) (ha1 : a ≤ 1) (hu : ∀ u, ¬ SvUncertain c.data u) : SvAdmitted c v := by
  rw [C217_exact_partial c hd hf v hgen]
  intro xh _
  refine ⟨?_, fun u h => absurd h (hu u), fun a u _ _ h => absurd h (hu u), fun u h => absurd h (hu u)⟩
  intro a' ha' _ _
  rw [ha] at ha'
  injection ha' with ha'
  subst ha'
  obtain ⟨h1, h2⟩ := genRES_le (d := c.data) hgen xh
  have h3 := relief_nonneg (c := c) hfea xh
  refine max_le (by linarith) ?_
  nlinarith [mul_le_mul_of_nonneg_right ha1 (le_trans h1 h2)]

/-- C217, violated: a requirement above the production excludes every production without curtailment, however much capacity is idle -/
theorem C217_violated_high (c : SvCase) (hd : SvComplete c.data) (hf : c.feasibility = true → 0 < c.noFea) (v : SvVals) (hgen : ∀ i, 0 ≤ v.gen i)
    (a : Rat) (ha : c.data.ancillary = some a) (ha1 : 1 < a) (hca : SvCanAnc c.data) (xh : Nat) (hxh : xh < c.noh) (hG : 0 < svGenAll c.data v.gen xh) (hr : svRelief c v xh = 0) : ¬ SvAdmitted c v := by
  rw [C217_exact_partial c hd hf v hgen]
  intro h
  obtain ⟨n1, _, n3, _⟩ := h xh hxh
  have hm : svGenAll c.data v.gen xh < svNeedA c v a xh := by
    unfold svNeedA
    rw [hr]
    refine lt_of_lt_of_le ?_ (le_max_right _ _)
    nlinarith
  by_cases hs : ∃ u, SvUncertain c.data u ∧ SvCanSup c.data
  · obtain ⟨u, hu, hcs⟩ := hs
    have := n3 a u ha hca hu hcs
    have h0 : 0 ≤ svNeedR c v u xh := le_max_left _ _
    linarith
  · have := n1 a ha hca hs
    linarith

/-- C217, violated: a class of units all of whose entries say that they do not provide a service counts as providing it -/
theorem C217_violated_flags (l : List Bool) (hl : l ≠ []) : svTrue (.list l) = true := by
  cases l with
  | nil => exact absurd rfl hl
  | cons b l => rfl

/-- C217, violated: if only conventional units provide ancillary services, the settings of the package (no number of units) always raise -/
theorem C217_violated_number (d : SvData) (ha : d.ancillary ≠ none) (hc : svTrue d.convA = true) (hh : svTrue d.hydroA = false) (hn : d.convNumber = none) (s : SvSets) : svInit d ≠ .ok s := by
  intro h
  unfold svInit at h
  obtain ⟨a, h1, _⟩ := except_bind_ok.1 h
  unfold svAncillary at h1
  obtain ⟨q, hq⟩ := Option.ne_none_iff_exists'.1 ha
  rw [hq] at h1
  dsimp only at h1
  rw [if_pos hc, hh] at h1
  obtain ⟨l, h2, _⟩ := except_bind_ok.1 h1
  unfold svConvOnly at h2
  rw [hn] at h2
  dsimp only at h2
  split at h2 <;> cases h2

/-! ## C218: uncertain renewables -/

/-- C218: uncertain renewable units without support produce at most the certain part of what is available, up to the curtailment; and this is all that is asked if there are no ancillary services -/
theorem C218_without_partial (c : SvCase) (hd : SvComplete c.data) (hf : c.feasibility = true → 0 < c.noFea) (v : SvVals) (hgen : ∀ i, 0 ≤ v.gen i) (u : Rat) (hu : SvUncertain c.data u)
    (hcs : ¬ SvCanSup c.data) : (SvAdmitted c v → ∀ xh < c.noh, svGenRES c.data v.gen xh ≤ v.avail xh * (1 - u) + svRelief c v xh) ∧
      (c.data.ancillary = none → (SvAdmitted c v ↔ ∀ xh < c.noh, svGenRES c.data v.gen xh ≤ v.avail xh * (1 - u) + svRelief c v xh)) := by
  rw [C217_exact_partial c hd hf v hgen]
  have h1 : (∀ xh < c.noh, SvNeeds c v xh) → ∀ xh < c.noh, svGenRES c.data v.gen xh ≤ v.avail xh * (1 - u) + svRelief c v xh :=
    fun h xh hxh => (h xh hxh).2.2.2 u hu hcs
  refine ⟨h1, fun ha => ⟨h1, ?_⟩⟩
  intro h xh hxh
  refine ⟨fun a h' => ?_, fun u' _ h' => absurd h' hcs, fun a u' _ _ _ h' => absurd h' hcs, ?_⟩
  · rw [ha] at h'
    cases h'
  · intro u' hu' _
    rw [svUncertain_unique hu' hu]
    exact h xh hxh

/-- C218: with support, renewable units produce at most the certain part, the curtailment and the whole production of the instance; with ancillary services the support and these share the production -/
theorem C218_with_partial (c : SvCase) (hd : SvComplete c.data) (hf : c.feasibility = true → 0 < c.noFea) (v : SvVals) (hgen : ∀ i, 0 ≤ v.gen i) (u : Rat) (hu : SvUncertain c.data u)
    (hcs : SvCanSup c.data) (h : SvAdmitted c v) (xh : Nat) (hxh : xh < c.noh) :
    (¬ SvCanAnc c.data → svGenRES c.data v.gen xh ≤ v.avail xh * (1 - u) + svRelief c v xh + svGenAll c.data v.gen xh) ∧
    (∀ a, c.data.ancillary = some a → SvCanAnc c.data → svGenRES c.data v.gen xh ≤ v.avail xh * (1 - u) + 2 * svRelief c v xh + (1 - a) * svGenAll c.data v.gen xh) := by
  rw [C217_exact_partial c hd hf v hgen] at h
  obtain ⟨_, n2, n3, _⟩ := h xh hxh
  have hr : ∀ G, svNeedR c v u xh ≤ G → svGenRES c.data v.gen xh ≤ v.avail xh * (1 - u) + svRelief c v xh + G := by
    intro G hG
    have := le_trans (le_max_right 0 _) hG
    linarith
  refine ⟨fun hca => hr _ (n2 u hu hcs hca), ?_⟩
  intro a ha hca
  have h1 := n3 a u ha hca hu hcs
  have h2 : a * svGenAll c.data v.gen xh - svRelief c v xh ≤ svNeedA c v a xh := le_max_right _ _
  have h3 := hr (svGenAll c.data v.gen xh - svNeedA c v a xh) (by linarith)
  linarith

/-- C218, violated: if some unit may support renewables, the uncertainty excludes nothing: every dispatch within the available power is admitted, also if renewable units are the only ones that produce -/
theorem C218_violated_void (c : SvCase) (hd : SvComplete c.data) (hf : c.feasibility = true → 0 < c.noFea) (v : SvVals) (hgen : ∀ i, 0 ≤ v.gen i) (hfea : ∀ i, 0 ≤ v.fea i)
    (ha : c.data.ancillary = none) (u : Rat) (hu : SvUncertain c.data u) (hu1 : u ≤ 1) (hcs : SvCanSup c.data)
    (hav : ∀ xh < c.noh, svGenRES c.data v.gen xh ≤ v.avail xh) : SvAdmitted c v := by
  rw [C217_exact_partial c hd hf v hgen]
  intro xh hxh
  have hnoA : ¬ SvCanAnc c.data := fun h => h.1 ha
  refine ⟨fun a h' => ?_, ?_, fun a u' _ h' => absurd h' hnoA, fun u' _ h' => absurd hcs h'⟩
  · rw [ha] at h'
    cases h'
  · intro u' hu' _ _
    rw [svUncertain_unique hu' hu]
    obtain ⟨h1, h2⟩ := genRES_le (d := c.data) hgen xh
    have h3 := relief_nonneg (c := c) hfea xh
    have h4 := hav xh hxh
    refine max_le (le_trans h1 h2) ?_
    have h5 : svGenRES c.data v.gen xh * (1 - u) ≤ v.avail xh * (1 - u) := mul_le_mul_of_nonneg_right h4 (by linarith)
    by_cases hu0 : u ≤ 1 ∧ 0 ≤ u
    · nlinarith [mul_nonneg hu0.2 h1]
    · have : u < 0 := by
        by_contra hc
        exact hu0 ⟨hu1, not_lt.1 hc⟩
      nlinarith [mul_nonneg (le_of_lt (neg_pos.2 this)) h1]

/-- C218, violated: only the first uncertainty is used, for all units -/
theorem C218_violated_first (d : SvData) (u : Option Rat) (l l' : List (Option Rat)) :
    svInit { d with uncertainty := u :: l } = svInit { d with uncertainty := u :: l' } := rfl

/-! ## C219: curtailment -/

/-- the curtailment variables of an instance: the same numbers that the balances of the buses and the costs use -/
def ownCurtailment (noFea xh : Nat) (i : Nat) : Prop := ∃ k < noFea, i = xh * noFea + k

/-- C219: with one bus with demand, or in the first instance, the curtailment of the services and of the balance without network is one of the instance -/
theorem C219_own_partial (feasibility : Bool) (noh noFea : Nat) (fea : Nat → Rat) (xh : Nat) (hxh : xh < noh) (h0 : 0 < noFea) (h : noFea = 1 ∨ xh = 0) (hf : feasibility = true) :
    svFea feasibility noh noFea fea xh = .ok (fea xh) ∧ ownCurtailment noFea xh xh := by
  constructor
  · unfold svFea
    have : noh * 1 ≤ noh * noFea := Nat.mul_le_mul_left _ h0
    rw [if_pos hf, if_pos (by omega)]
  · rcases h with h | h
    · subst h
      exact ⟨0, by omega, by omega⟩
    · subst h
      exact ⟨0, h0, by omega⟩

/-- C219, violated: with several buses with demand, the curtailment used for every other instance belongs to another instance (number `xh / noFea`) -/
theorem C219_violated_other (noh noFea : Nat) (fea : Nat → Rat) (xh : Nat) (hxh : xh < noh) (h2 : 2 ≤ noFea) (h1 : 1 ≤ xh) :
    svFea true noh noFea fea xh = .ok (fea xh) ∧ ¬ ownCurtailment noFea xh xh ∧ ownCurtailment noFea (xh / noFea) xh ∧ xh / noFea < xh := by
  refine ⟨?_, ?_, ?_, ?_⟩
  · unfold svFea
    have : noh * 1 ≤ noh * noFea := Nat.mul_le_mul_left _ (by omega)
    rw [if_pos rfl, if_pos (by omega)]
  · rintro ⟨k, _, e⟩
    have : xh * 2 ≤ xh * noFea := Nat.mul_le_mul_left _ h2
    omega
  · refine ⟨xh % noFea, Nat.mod_lt _ (by omega), ?_⟩
    rw [Nat.mul_comm]
    exact (Nat.div_add_mod xh noFea).symm
  · exact Nat.div_lt_self (by omega) (by omega)

/-- C219, violated: without demand at any bus no model with curtailment and services can be built -/
theorem C219_violated_none (noh : Nat) (fea : Nat → Rat) (xh : Nat) : svFea true noh 0 fea xh = .error .key := by
  unfold svFea
  rw [if_pos rfl, if_neg (by omega)]

/-- the part of the objective that an amount `q` of curtailment at position `i` of the variables costs in period `xt` (all other curtailment being the same) -/
def curtailedAt (noFea : Nat) (i t : Nat) (q : Rat) (xh xf xt : Nat) : Rat := if xh * noFea + xf = i ∧ xt = t then q else 0

theorem sum_single (n k : Nat) (hk : k < n) (f : Nat → Rat) (h : ∀ i < n, i ≠ k → f i = 0) : ((List.range n).map f).sum = f k := by
  induction n with
  | zero => omega
  | succ n ih =>
    rw [List.range_succ, List.map_append, List.sum_append]
    simp only [List.map_cons, List.map_nil, List.sum_cons, List.sum_nil, add_zero]
    rcases Nat.lt_or_ge k n with hk' | hk'
    · rw [ih hk' (fun i hi hne => h i (by omega) hne), h n (by omega) (by omega), add_zero]
    · have : k = n := by omega
      subst this
      have hz : ((List.range k).map f).sum = 0 := by
        apply List.sum_eq_zero
        intro x hx
        obtain ⟨i, hi, rfl⟩ := List.mem_map.1 hx
        exact h i (by have := List.mem_range.1 hi; omega) (by have := List.mem_range.1 hi; omega)
      rw [hz, zero_add]

/-- C219, violated: the curtailment that balances instance `xh` without network is charged with the weight of instance `xh / noFea` -/
theorem C219_violated_charge (noGen noFea noPump noTime noInst : Nat) (w ofaux value : Nat → Rat) (base penalty : Rat) (hfea : 0 < noFea) (xh : Nat) (hxh : xh < noInst) (t : Nat) (ht : t < noTime) (q : Rat) :
    ofRule noGen noFea noPump noTime noInst w ofaux value base penalty (fun _ _ _ => 0) (curtailedAt noFea xh t q) (fun _ _ _ => 0) = q * penalty * w t * ofaux (xh / noFea) := by
  have hz : ∀ n : Nat, ((List.range n).map (fun _ => (0 : Rat))).sum = 0 := by
    intro n
    apply List.sum_eq_zero
    intro x hx
    obtain ⟨i, _, rfl⟩ := List.mem_map.1 hx
    rfl
  have hj : xh / noFea < noInst := lt_of_le_of_lt (Nat.div_le_self _ _) hxh
  have hmod : xh % noFea < noFea := Nat.mod_lt _ hfea
  have hdm : xh / noFea * noFea + xh % noFea = xh := by rw [Nat.mul_comm]; exact Nat.div_add_mod xh noFea
  have huniq : ∀ j k, k < noFea → j * noFea + k = xh → j = xh / noFea ∧ k = xh % noFea := by
    intro j k hk e
    constructor
    · rw [← e, Nat.mul_comm, Nat.mul_add_div hfea, Nat.div_eq_of_lt hk, Nat.add_zero]
    · rw [← e, Nat.mul_comm, Nat.mul_add_mod, Nat.mod_eq_of_lt hk]
  unfold ofRule
  simp only [hz, zero_add, zero_mul, mul_zero, sub_zero]
  rw [sum_single noInst (xh / noFea) hj]
  · rw [sum_single noTime t ht]
    · rw [sum_single noFea (xh % noFea) hmod]
      · unfold curtailedAt
        rw [if_pos ⟨hdm, rfl⟩]
      · intro k hk hne
        unfold curtailedAt
        rw [if_neg]
        rintro ⟨e, _⟩
        exact hne (huniq _ k hk e).2
    · intro s _ hne
      have : ((List.range noFea).map (fun xf => curtailedAt noFea xh t q (xh / noFea) xf s)).sum = 0 := by
        apply List.sum_eq_zero
        intro x hx
        obtain ⟨i, _, rfl⟩ := List.mem_map.1 hx
        unfold curtailedAt
        rw [if_neg (fun h => hne h.2)]
      rw [this, zero_mul, zero_mul]
  · intro j _ hne
    have : ((List.range noTime).map (fun xt => ((List.range noFea).map (fun xf => curtailedAt noFea xh t q j xf xt)).sum * penalty * w xt)).sum = 0 := by
      apply List.sum_eq_zero
      intro x hx
      obtain ⟨s, _, rfl⟩ := List.mem_map.1 hx
      have : ((List.range noFea).map (fun xf => curtailedAt noFea xh t q j xf s)).sum = 0 := by
        apply List.sum_eq_zero
        intro x hx
        obtain ⟨i, hi, rfl⟩ := List.mem_map.1 hx
        unfold curtailedAt
        rw [if_neg]
        rintro ⟨e, _⟩
        exact hne (huniq j i (List.mem_range.1 hi) e).1
      rw [this, zero_mul, zero_mul]
    rw [this, zero_mul]

/-! ## examples -/

/-- two conventional units, one hydropower plant and one renewable unit; 30 % ancillary services and an uncertainty of 20 % -/
def svExample : SvData := ⟨some (3 / 10), .list [true], .list [true], .list [true], .list [true], [some (1 / 5)], none, 2, 1, 1⟩

example : svInit svExample = .ok ⟨[0, 1, 2], [0, 1, 2], 2, some (1 / 5)⟩ := by decide +kernel
example : SvComplete svExample ∧ SvCanAnc svExample ∧ SvCanSup svExample ∧ SvUncertain svExample (1 / 5) := by
  refine ⟨⟨fun _ _ h => ?_, fun _ => by decide⟩, by decide, by decide, ⟨by decide, rfl⟩⟩
  cases h
example : svInit { svExample with hydroA := .one false } = .error .index := by decide +kernel
example : svInit { svExample with convR := .one false, hydroR := .one false } = .ok ⟨[0, 1, 2], [], 1, some (1 / 5)⟩ := by decide +kernel
example : ¬ SvCanSup { svExample with convR := .one false, hydroR := .one false } := by decide
example : svGenAll svExample (fun i => (i : Rat)) 1 = 4 + 5 + 6 + 7 ∧ svGenRES svExample (fun i => (i : Rat)) 1 = 7 := by decide +kernel
example : svRows ⟨svExample, true, 2, 3⟩ ⟨[0, 1, 2], [0, 1, 2], 2, some (1 / 5)⟩ ⟨fun i => (i : Rat), fun _ => 1, fun _ => 10⟩ (fun i => (i : Rat)) 1 =
    .ok [(22, 5), (22, 2), (2, 28 / 5), (22, 3), (12, 7)] := by decide +kernel

end Pyensys
