import Verif.Model.Devices
import Verif.Props.AttestOptions
import Mathlib.Tactic.Ring
import Mathlib.Tactic.Linarith

/-!
# The electricity network of the energy engine: C52, C101

Specification.  `flowVar net b k` is the flow variable of branch `b` (from zero) in scenario `k`, if it has one; scenario 0
is the intact network and scenario `k + 1` the `k`-th contingency.  `voltVar` is the same for buses.
-/

namespace Pyensys

/-- the flow variable of branch `b` in scenario `k` -/
def flowVar (net : DvNet) (b k : Nat) : Option Nat := (net.branches[b]?).bind (fun br => (br.n1[k]?).join)

/-- the voltage variable of bus `i` in scenario `k` -/
def voltVar (net : DvNet) (i k : Nat) : Option Nat := (net.buses[i]?).bind (fun br => (br.n1[k]?).join)

/-! ## the loops -/

/-- number of branches before `b` that are in service when branch number `xs` (from one) fails -/
def rankOf (xs : Int) (b : Nat) : Nat := if 1 ≤ xs ∧ xs ≤ b then b - 1 else b

/-- number of flow variables of the first `k` contingencies -/
def usedBy (n : Nat) : List Int → Nat → Nat
  | _, 0 => 0
  | [], _ + 1 => 0
  | xs :: cs, k + 1 => rankOf xs n + usedBy n cs k

theorem scenarioBranches_spec (xs : Int) (xsec : Nat) : ∀ (bs : List DvBranch) (xb xcou : Nat),
    (scenarioBranches xs xsec bs xb xcou).1.length = bs.length ∧
    (scenarioBranches xs xsec bs xb xcou).2 + rankOf xs xb = xcou + rankOf xs (xb + bs.length) ∧
    ∀ (i : Nat) (b : DvBranch), bs[i]? = some b → (scenarioBranches xs xsec bs xb xcou).1[i]? =
      some (if ((xb + i : Nat) : Int) + 1 = xs then b
        else { b with n1 := b.n1.set xsec (some (xcou + rankOf xs (xb + i) - rankOf xs xb)) }) := by
  intro bs
  induction bs with
  | nil => intro xb xcou; simp [scenarioBranches]
  | cons c bs ih =>
    intro xb xcou
    unfold scenarioBranches
    by_cases h : (xb : Int) + 1 = xs
    · rw [if_neg (by simpa using h)]
      obtain ⟨h1, h2, h3⟩ := ih (xb + 1) xcou
      have e1 : rankOf xs (xb + 1) = xb := by unfold rankOf; rw [if_pos (by omega)]; omega
      have e2 : rankOf xs xb = xb := by unfold rankOf; rw [if_neg (by omega)]
      refine ⟨by simp [h1], ?_, ?_⟩
      · simp only [List.length_cons]
        rw [show xb + (bs.length + 1) = xb + 1 + bs.length by omega]
        omega
      · intro i b hb
        cases i with
        | zero =>
          simp only [List.getElem?_cons_zero, Option.some.injEq] at hb ⊢
          subst hb
          rw [if_pos (by omega)]
        | succ i =>
          simp only [List.getElem?_cons_succ] at hb ⊢
          rw [h3 i b hb, show xb + (i + 1) = xb + 1 + i by omega, e1, e2]
    · rw [if_pos (by simpa using h)]
      obtain ⟨h1, h2, h3⟩ := ih (xb + 1) (xcou + 1)
      have e1 : rankOf xs (xb + 1) = rankOf xs xb + 1 := by
        unfold rankOf
        by_cases hh : 1 ≤ xs ∧ xs ≤ xb
        · rw [if_pos (by omega), if_pos hh]; omega
        · rw [if_neg (by omega), if_neg hh]
      refine ⟨by simp [h1], ?_, ?_⟩
      · simp only [List.length_cons]
        rw [show xb + (bs.length + 1) = xb + 1 + bs.length by omega]
        omega
      · intro i b hb
        cases i with
        | zero =>
          simp only [List.getElem?_cons_zero, Option.some.injEq] at hb ⊢
          subst hb
          rw [if_neg (by omega)]
          simp
        | succ i =>
          simp only [List.getElem?_cons_succ] at hb ⊢
          rw [h3 i b hb, show xb + (i + 1) = xb + 1 + i by omega, e1]
          have : xcou + 1 + rankOf xs (xb + 1 + i) - (rankOf xs xb + 1) = xcou + rankOf xs (xb + 1 + i) - rankOf xs xb := by omega
          rw [this]

theorem scenarioLoop_branches : ∀ (cs : List Int) (xsec xcou : Nat) (buses : List DvBus) (brs : List DvBranch),
    (scenarioLoop cs xsec xcou buses brs).2.length = brs.length ∧
    ∀ (i : Nat) (b : DvBranch), brs[i]? = some b → ∃ b', (scenarioLoop cs xsec xcou buses brs).2[i]? = some b' ∧
      b'.fpos = b.fpos ∧ b'.tpos = b.tpos ∧ b'.rate = b.rate ∧ b'.n1.length = b.n1.length ∧
      (∀ k, k ≤ xsec → b'.n1[k]? = b.n1[k]?) ∧
      ∀ (j : Nat) (xs : Int), cs[j]? = some xs → xsec + 1 + j < b.n1.length →
        b'.n1[xsec + 1 + j]? = if (i : Int) + 1 = xs then b.n1[xsec + 1 + j]?
          else some (some (xcou + usedBy brs.length cs j + rankOf xs i)) := by
  intro cs
  induction cs with
  | nil => intro xsec xcou buses brs; exact ⟨rfl, fun i b h => ⟨b, h, rfl, rfl, rfl, rfl, fun _ _ => rfl, by simp⟩⟩
  | cons c cs ih =>
    intro xsec xcou buses brs
    obtain ⟨s1, s2, s3⟩ := scenarioBranches_spec c (xsec + 1) brs 0 xcou
    have r0 : rankOf c 0 = 0 := by unfold rankOf; split <;> rfl
    rw [r0] at s2
    obtain ⟨h1, h2⟩ := ih (xsec + 1) (scenarioBranches c (xsec + 1) brs 0 xcou).2 (scenarioBuses (xsec + 1) buses)
      (scenarioBranches c (xsec + 1) brs 0 xcou).1
    unfold scenarioLoop
    refine ⟨by rw [h1, s1], fun i b hb => ?_⟩
    have hs := s3 i b hb
    rw [r0] at hs
    simp only [Nat.zero_add, Nat.sub_zero] at hs
    obtain ⟨b', g1, g2, g3, g4, g5, g6, g7⟩ := h2 i _ hs
    have len : (if ((i : Nat) : Int) + 1 = c then b
        else { b with n1 := b.n1.set (xsec + 1) (some (xcou + rankOf c i)) }).n1.length = b.n1.length := by
      split <;> simp
    refine ⟨b', g1, ?_, ?_, ?_, by rw [g5, len], ?_, ?_⟩
    · rw [g2]; split <;> rfl
    · rw [g3]; split <;> rfl
    · rw [g4]; split <;> rfl
    · intro k hk
      rw [g6 k (by omega)]
      split
      · rfl
      · exact List.getElem?_set_ne (by omega)
    · intro j xs hj hlt
      cases j with
      | zero =>
        simp only [List.getElem?_cons_zero, Option.some.injEq] at hj
        subst hj
        rw [Nat.add_zero, g6 (xsec + 1) (le_refl _)]
        split
        · rfl
        · simp only [usedBy, Nat.add_zero]
          rw [List.getElem?_set_self (by omega)]
      | succ j =>
        simp only [List.getElem?_cons_succ] at hj
        have := g7 j xs hj (by rw [len]; omega)
        rw [show xsec + 1 + (j + 1) = xsec + 1 + 1 + j by omega, this]
        split
        · rename_i hi
          split
          · rfl
          · rw [List.getElem?_set_ne (by omega)]
        · simp only [usedBy]
          rw [s1]
          congr 3
          simp only [Nat.zero_add] at s2
          omega

theorem scenarioLoop_buses : ∀ (cs : List Int) (xsec xcou : Nat) (buses : List DvBus) (brs : List DvBranch),
    (scenarioLoop cs xsec xcou buses brs).1.length = buses.length ∧
    ∀ (i : Nat) (b : DvBus), buses[i]? = some b → ∃ b', (scenarioLoop cs xsec xcou buses brs).1[i]? = some b' ∧
      b'.number = b.number ∧ b'.fBranches = b.fBranches ∧ b'.tBranches = b.tBranches ∧ b'.loadType = b.loadType ∧
      b'.n1.length = b.n1.length ∧ (∀ k, k ≤ xsec → b'.n1[k]? = b.n1[k]?) ∧
      ∀ j, j < cs.length → xsec + 1 + j < b.n1.length →
        b'.n1[xsec + 1 + j]? = some (some ((xsec + 1 + j) * buses.length + i)) := by
  intro cs
  induction cs with
  | nil => intro xsec xcou buses brs; exact ⟨rfl, fun i b h => ⟨b, h, rfl, rfl, rfl, rfl, rfl, fun _ _ => rfl, by simp⟩⟩
  | cons c cs ih =>
    intro xsec xcou buses brs
    obtain ⟨h1, h2⟩ := ih (xsec + 1) (scenarioBranches c (xsec + 1) brs 0 xcou).2 (scenarioBuses (xsec + 1) buses)
      (scenarioBranches c (xsec + 1) brs 0 xcou).1
    have hl : (scenarioBuses (xsec + 1) buses).length = buses.length := by simp [scenarioBuses]
    unfold scenarioLoop
    refine ⟨by rw [h1, hl], fun i b hb => ?_⟩
    have hs : (scenarioBuses (xsec + 1) buses)[i]? =
        some { b with n1 := b.n1.set (xsec + 1) (some ((xsec + 1) * buses.length + i)) } := by
      simp [scenarioBuses, List.getElem?_zipIdx, hb]
    obtain ⟨b', g1, g2, g3, g4, g5, g6, g7, g8⟩ := h2 i _ hs
    refine ⟨b', g1, g2, g3, g4, g5, by simpa using g6, ?_, ?_⟩
    · intro k hk
      rw [g7 k (by omega)]
      exact List.getElem?_set_ne (by omega)
    · intro j hj hlt
      cases j with
      | zero =>
        rw [Nat.add_zero, g7 _ (le_refl _)]
        rw [List.getElem?_set_self (by omega)]
      | succ j =>
        have := g8 j (by simpa using hj) (by simp; omega)
        rw [hl] at this
        rw [show xsec + 1 + (j + 1) = xsec + 1 + 1 + j by omega, this]

/-! ## buses and branches -/

/-- position of the first bus with a number -/
def busAt (numbers : List Int) (x : Int) : Option Nat := numbers.findIdx? (fun n => n = x)

theorem findBusFrom_eq (x : Int) : ∀ (bs : List DvBus) (k : Nat), findBusFrom x bs k =
    match busAt (bs.map (·.number)) x with
    | some p => .ok (k + p)
    | none => .error .index := by
  intro bs
  induction bs with
  | nil => intro k; rfl
  | cons b bs ih =>
    intro k
    unfold findBusFrom
    by_cases h : b.number = x
    · simp [busAt, List.findIdx?_cons, h]
    · rw [if_pos h, ih]
      simp only [busAt, List.map_cons, List.findIdx?_cons, h, decide_false]
      cases hh : List.findIdx? (fun n => decide (n = x)) (List.map (fun x => x.number) bs) with
      | none => simp
      | some p => simp; omega

theorem findBus_eq (bs : List DvBus) (x : Int) : findBus bs x =
    match busAt (bs.map (·.number)) x with
    | some p => .ok p
    | none => .error .index := by
  unfold findBus
  rw [findBusFrom_eq]
  cases busAt (bs.map (·.number)) x <;> simp

theorem numbers_addF (bs : List DvBus) (p v : Nat) : (addBraF bs p v).map (·.number) = bs.map (·.number) := by
  unfold addBraF
  apply List.ext_getElem? 
  intro i
  simp only [List.getElem?_map, List.getElem?_modify]
  split
  · cases bs[i]? <;> simp
  · cases bs[i]? <;> simp

theorem numbers_addT (bs : List DvBus) (p v : Nat) : (addBraT bs p v).map (·.number) = bs.map (·.number) := by
  unfold addBraT
  apply List.ext_getElem? 
  intro i
  simp only [List.getElem?_map, List.getElem?_modify]
  split
  · cases bs[i]? <;> simp
  · cases bs[i]? <;> simp

/-- the branches (numbered from `k` on) whose bus `sel` is at position `p` -/
def branchesAt (numbers : List Int) (sel : DvBranchIn → Int) (p : Nat) : List DvBranchIn → Nat → List Nat
  | [], _ => []
  | br :: brs, k => (if busAt numbers (sel br) = some p then [k] else []) ++ branchesAt numbers sel p brs (k + 1)

theorem matchBranches_spec (base : Rat) (secNo : Nat) : ∀ (brs : List DvBranchIn) (k : Nat) (buses : List DvBus)
    (r : List DvBus × List DvBranch), matchBranches base secNo brs k buses = .ok r →
    (brs ≠ [] → base ≠ 0) ∧ r.2.length = brs.length ∧ r.1.length = buses.length ∧
    (∀ (i : Nat) (br : DvBranchIn), brs[i]? = some br → ∃ f t, busAt (buses.map (·.number)) br.fbus = some f ∧
      busAt (buses.map (·.number)) br.tbus = some t ∧
      r.2[i]? = some ⟨f, t, br.rate / base, (List.replicate (secNo + 1) none).set 0 (some (k + i))⟩) ∧
    ∀ (p : Nat) (b : DvBus), buses[p]? = some b → r.1[p]? =
      some { b with fBranches := b.fBranches ++ branchesAt (buses.map (·.number)) (·.fbus) p brs k
                    tBranches := b.tBranches ++ branchesAt (buses.map (·.number)) (·.tbus) p brs k } := by
  intro brs
  induction brs with
  | nil =>
    intro k buses r h
    simp only [matchBranches, Except.ok.injEq] at h
    subst h
    refine ⟨by simp, rfl, rfl, by simp, fun p b hb => ?_⟩
    simp [branchesAt, hb]
  | cons br brs ih =>
    intro k buses r h
    unfold matchBranches at h
    rw [except_bind_ok] at h
    obtain ⟨f, hf, h⟩ := h
    rw [except_bind_ok] at h
    obtain ⟨t, ht, h⟩ := h
    split at h
    · cases h
    rename_i hb0
    rw [except_bind_ok] at h
    obtain ⟨r', hr', h⟩ := h
    simp only [Except.ok.injEq] at h
    subst h
    rw [findBus_eq] at hf ht
    have hf' : busAt (buses.map (·.number)) br.fbus = some f := by
      cases hh : busAt (buses.map (·.number)) br.fbus with
      | none => rw [hh] at hf; cases hf
      | some p => rw [hh] at hf; simp at hf; rw [hf]
    have ht' : busAt (buses.map (·.number)) br.tbus = some t := by
      cases hh : busAt (buses.map (·.number)) br.tbus with
      | none => rw [hh] at ht; cases ht
      | some p => rw [hh] at ht; simp at ht; rw [ht]
    obtain ⟨h1, h2, h3, h4, h5⟩ := ih _ _ _ hr'
    rw [numbers_addT, numbers_addF] at h4 h5
    refine ⟨fun _ => hb0, by simp [h2], by rw [h3]; simp [addBraT, addBraF], ?_, ?_⟩
    · intro i b hb
      cases i with
      | zero =>
        simp only [List.getElem?_cons_zero, Option.some.injEq] at hb
        subst hb
        exact ⟨f, t, hf', ht', by simp⟩
      | succ i =>
        simp only [List.getElem?_cons_succ] at hb ⊢
        obtain ⟨f', t', e1, e2, e3⟩ := h4 i b hb
        exact ⟨f', t', e1, e2, by rw [e3, show k + (i + 1) = k + 1 + i by omega]⟩
    · intro p b hb
      have hb2 : (addBraT (addBraF buses f k) t k)[p]? = some { b with
          fBranches := b.fBranches ++ (if f = p then [k] else [])
          tBranches := b.tBranches ++ (if t = p then [k] else []) } := by
        unfold addBraT addBraF
        rw [List.getElem?_modify, List.getElem?_modify, hb]
        by_cases c1 : f = p <;> by_cases c2 : t = p <;> simp [c1, c2]
      rw [h5 p _ hb2]
      simp only [branchesAt, hf', ht', Option.some.injEq, List.append_assoc]

theorem matchBranches_total (base : Rat) (secNo : Nat) (hb : base ≠ 0) : ∀ (brs : List DvBranchIn) (k : Nat) (buses : List DvBus),
    (∀ br ∈ brs, br.fbus ∈ buses.map (·.number) ∧ br.tbus ∈ buses.map (·.number)) →
    ∃ r, matchBranches base secNo brs k buses = .ok r := by
  have hfind : ∀ (l : List Int) (x : Int), x ∈ l → ∃ p, busAt l x = some p := by
    intro l x hx
    unfold busAt
    cases h : List.findIdx? (fun n => decide (n = x)) l with
    | some p => exact ⟨p, rfl⟩
    | none => rw [List.findIdx?_eq_none_iff] at h; have := h x hx; simp at this
  intro brs
  induction brs with
  | nil => intro k buses _; exact ⟨_, rfl⟩
  | cons br brs ih =>
    intro k buses h
    obtain ⟨f, hf⟩ := hfind _ _ (h br (by simp)).1
    obtain ⟨t, ht⟩ := hfind _ _ (h br (by simp)).2
    obtain ⟨r, hr⟩ := ih (k + 1) (addBraT (addBraF buses f k) t k) (by
      rw [numbers_addT, numbers_addF]
      exact fun b hb => h b (by simp [hb]))
    refine ⟨(r.1, ⟨f, t, br.rate / base, (List.replicate (secNo + 1) none).set 0 (some k)⟩ :: r.2), ?_⟩
    unfold matchBranches
    simp only [findBus_eq, hf, ht, bind, Except.bind]
    rw [if_neg hb, hr]

/-- what `loadTypes` keeps -/
theorem loadTypes_spec (lt : List Int) (buses r : List DvBus) (h : loadTypes lt buses = .ok r) : r.length = buses.length ∧
    ∀ (i : Nat) (b : DvBus), buses[i]? = some b → ∃ b', r[i]? = some b' ∧ b'.number = b.number ∧
      b'.fBranches = b.fBranches ∧ b'.tBranches = b.tBranches ∧ b'.n1 = b.n1 := by
  unfold loadTypes at h
  split at h
  · simp only [Except.ok.injEq] at h; subst h; exact ⟨rfl, fun i b hb => ⟨b, hb, rfl, rfl, rfl, rfl⟩⟩
  · split at h
    · simp only [Except.ok.injEq] at h; subst h
      rename_i v _
      refine ⟨by simp, fun i b hb => ⟨{ b with loadType := .list [v] }, by rw [List.getElem?_map, hb]; rfl, rfl, rfl, rfl, rfl⟩⟩
    · simp only [Except.ok.injEq] at h; subst h; exact ⟨rfl, fun i b hb => ⟨b, hb, rfl, rfl, rfl, rfl⟩⟩
  · split at h
    · cases h
    · simp only [Except.ok.injEq] at h; subst h
      refine ⟨by simp, fun i b hb => ?_⟩
      rw [List.getElem?_map, List.getElem?_zipIdx, hb]
      simp only [Option.map_some, Nat.zero_add]
      refine ⟨_, rfl, ?_⟩
      split <;> simp

/-- all of `initialise` -/
theorem dvInitialise_spec {numbers : List Int} {brs : List DvBranchIn} {base : Rat} {s : DvSettings} {net : DvNet}
    (h : dvInitialise numbers brs base s = .ok net) :
    net.securityNo = (dvContingencies brs.length s).length ∧ net.branches.length = brs.length ∧ net.buses.length = numbers.length ∧
    (∀ (i : Nat) (br : DvBranchIn), brs[i]? = some br → ∃ b, net.branches[i]? = some b ∧ busAt numbers br.fbus = some b.fpos ∧
      busAt numbers br.tbus = some b.tpos ∧ base ≠ 0 ∧ b.rate = br.rate / base ∧
      b.n1.length = (dvContingencies brs.length s).length + 1 ∧ b.n1[0]? = some (some i) ∧
      ∀ (j : Nat) (xs : Int), (dvContingencies brs.length s)[j]? = some xs → b.n1[j + 1]? =
        some (if (i : Int) + 1 = xs then none else some (brs.length + usedBy brs.length (dvContingencies brs.length s) j + rankOf xs i))) ∧
    (∀ (i : Nat) (x : Int), numbers[i]? = some x → ∃ b, net.buses[i]? = some b ∧ b.number = x ∧
      b.fBranches = branchesAt numbers (·.fbus) i brs 0 ∧ b.tBranches = branchesAt numbers (·.tbus) i brs 0 ∧
      (s.losses = true → b.fLoss = b.fBranches ∧ b.tLoss = b.tBranches) ∧
      b.n1.length = (dvContingencies brs.length s).length + 1 ∧
      ∀ k, k ≤ (dvContingencies brs.length s).length → b.n1[k]? = some (some (k * numbers.length + i))) := by
  unfold dvInitialise at h
  rw [except_bind_ok] at h
  obtain ⟨r, hr, h⟩ := h
  rw [except_bind_ok] at h
  obtain ⟨buses, hb, h⟩ := h
  simp only [Except.ok.injEq] at h
  obtain ⟨m1, m2, m3, m4, m5⟩ := matchBranches_spec _ _ _ _ _ _ hr
  obtain ⟨l1, l2⟩ := loadTypes_spec _ _ _ hb
  generalize hcs : dvContingencies brs.length s = cs at *
  obtain ⟨t1, t2⟩ := scenarioLoop_branches cs 0 brs.length buses r.2
  obtain ⟨u1, u2⟩ := scenarioLoop_buses cs 0 brs.length buses r.2
  have hnum : (List.map (fun x : DvBus => x.number) (List.map (fun n : Int => ({ number := n } : DvBus)) numbers)) = numbers := by
    simp [Function.comp_def]
  rw [hnum] at m4 m5
  have hbl : buses.length = numbers.length := by rw [l1]; simp [busTables, m3]
  subst h
  refine ⟨rfl, t1.trans m2, ?_, ?_, ?_⟩
  · unfold lossLists; split
    · simp [u1, hbl]
    · rw [u1, hbl]
  · intro i br hi
    obtain ⟨f, t, e1, e2, e3⟩ := m4 i br hi
    obtain ⟨b', g1, g2, g3, g4, g5, g6, g7⟩ := t2 i _ e3
    have hne : brs ≠ [] := by rintro rfl; simp at hi
    refine ⟨b', g1, by rw [g2]; exact e1, by rw [g3]; exact e2, m1 hne, g4, by rw [g5]; simp, ?_, ?_⟩
    · rw [g6 0 (le_refl _)]; simp
    · intro j xs hj
      have hjl : j < cs.length := by
        by_contra hc
        rw [List.getElem?_eq_none (by omega)] at hj
        cases hj
      have := g7 j xs hj (by simp; omega)
      rw [show 0 + 1 + j = j + 1 by omega] at this
      rw [this, m2]
      split
      · rw [List.getElem?_set_ne (by omega)]
        rw [List.getElem?_replicate, if_pos (by omega)]
      · rfl
  · intro i x hx
    have hx' : (List.map (fun n : Int => ({ number := n } : DvBus)) numbers)[i]? = some { number := x } := by simp [hx]
    have hm := m5 i _ hx'
    simp only [List.nil_append] at hm
    have hbt : (busTables cs.length r.1)[i]? = some { number := x, fBranches := branchesAt numbers (fun x => x.fbus) i brs 0, tBranches := branchesAt numbers (fun x => x.tbus) i brs 0, n1 := (List.replicate (cs.length + 1) none).set 0 (some i) } := by
      unfold busTables
      rw [List.getElem?_map, List.getElem?_zipIdx, hm]
      simp
    obtain ⟨b1, k1, k2, k3, k4, k5⟩ := l2 i _ hbt
    obtain ⟨b2, n1, n2, n3, n4, _, n6, n7, n8⟩ := u2 i _ k1
    have hlen : b1.n1.length = cs.length + 1 := by rw [k5]; simp
    have key : ∀ k, k ≤ cs.length → b2.n1[k]? = some (some (k * numbers.length + i)) := by
      intro k hk
      cases k with
      | zero => rw [n7 0 (le_refl _), k5]; simp
      | succ k =>
        have := n8 k (by omega) (by omega)
        rw [show 0 + 1 + k = k + 1 by omega, hbl] at this
        exact this
    unfold lossLists
    split
    · refine ⟨{ b2 with fLoss := b2.fBranches, tLoss := b2.tBranches }, by simp only; rw [List.getElem?_map, n1]; rfl, by rw [n2, k2], by simp only; rw [n3, k3],
        by simp only; rw [n4, k4], fun _ => ⟨rfl, rfl⟩, by simp only; rw [n6, hlen], key⟩
    · rename_i hl
      exact ⟨b2, n1, by rw [n2, k2], by rw [n3, k3], by rw [n4, k4], fun hh => absurd hh hl, by rw [n6, hlen], key⟩

/-! ## C52: contingencies -/

/-- closed form of the tables, for contingencies `cs` -/
theorem flowVar_eq {numbers : List Int} {brs : List DvBranchIn} {base : Rat} {s : DvSettings} {net : DvNet}
    (h : dvInitialise numbers brs base s = .ok net) (b : Nat) : 
    (b < brs.length → flowVar net b 0 = some b) ∧
    (b < brs.length → ∀ (j : Nat) (xs : Int), (dvContingencies brs.length s)[j]? = some xs → flowVar net b (j + 1) =
      if (b : Int) + 1 = xs then none else some (brs.length + usedBy brs.length (dvContingencies brs.length s) j + rankOf xs b)) ∧
    ∀ k p, flowVar net b k = some p → b < brs.length ∧ k ≤ (dvContingencies brs.length s).length := by
  obtain ⟨_, d2, _, d4, _⟩ := dvInitialise_spec h
  have get : ∀ b, b < brs.length → ∃ br, brs[b]? = some br := fun b hb => ⟨_, List.getElem?_eq_getElem hb⟩
  refine ⟨fun hb => ?_, fun hb j xs hj => ?_, fun k p hp => ?_⟩
  · obtain ⟨br, hbr⟩ := get b hb
    obtain ⟨x, e1, _, _, _, _, _, e7, _⟩ := d4 b br hbr
    simp [flowVar, e1, e7]
  · obtain ⟨br, hbr⟩ := get b hb
    obtain ⟨x, e1, _, _, _, _, _, _, e8⟩ := d4 b br hbr
    simp [flowVar, e1, e8 j xs hj]
  · by_cases hb : b < brs.length
    · refine ⟨hb, ?_⟩
      obtain ⟨br, hbr⟩ := get b hb
      obtain ⟨x, e1, _, _, _, _, e6, _, _⟩ := d4 b br hbr
      by_contra hk
      rw [flowVar, e1] at hp
      simp only [Option.bind_some] at hp
      rw [List.getElem?_eq_none (by omega)] at hp
      cases hp
    · rw [flowVar, List.getElem?_eq_none (by omega)] at hp
      cases hp

theorem usedBy_le (n : Nat) : ∀ (cs : List Int) (j k : Nat) (xs : Int), cs[j]? = some xs → j < k → k ≤ cs.length →
    usedBy n cs j + rankOf xs n ≤ usedBy n cs k := by
  intro cs
  induction cs with
  | nil => simp
  | cons c cs ih =>
    intro j k xs hj hjk hk
    obtain ⟨k, rfl⟩ : ∃ k', k = k' + 1 := ⟨k - 1, by omega⟩
    cases j with
    | zero =>
      simp only [List.getElem?_cons_zero, Option.some.injEq] at hj
      subst hj
      simp only [usedBy]
      omega
    | succ j =>
      simp only [List.getElem?_cons_succ] at hj
      simp only [usedBy]
      have := ih j k xs hj (by omega) (by simpa using hk)
      omega

theorem usedBy_valid (n : Nat) : ∀ (cs : List Int) (k : Nat), (∀ c ∈ cs, 1 ≤ c ∧ c ≤ n) → k ≤ cs.length →
    usedBy n cs k = k * (n - 1) := by
  intro cs
  induction cs with
  | nil => intro k _ hk; simp at hk; subst hk; simp [usedBy]
  | cons c cs ih =>
    intro k h hk
    cases k with
    | zero => simp [usedBy]
    | succ k =>
      simp only [usedBy]
      rw [ih k (fun x hx => h x (by simp [hx])) (by simpa using hk)]
      have := h c (by simp)
      unfold rankOf
      rw [if_pos (by omega), Nat.add_mul]
      omega

/-- **C52.** In the intact network every branch has a flow variable; in a contingency every branch but the failed one. -/
theorem C52_active_partial (numbers : List Int) (brs : List DvBranchIn) (base : Rat) (s : DvSettings) (net : DvNet)
    (h : dvInitialise numbers brs base s = .ok net) (b : Nat) (hb : b < brs.length) :
    flowVar net b 0 = some b ∧
    (s.securityFlag = false → ∀ (k : Nat) (failed : Int), s.security[k]? = some failed →
      ((∃ p, flowVar net b (k + 1) = some p) ↔ (b : Int) + 1 ≠ failed)) := by
  obtain ⟨f1, f2, _⟩ := flowVar_eq h b
  refine ⟨f1 hb, fun hs k failed hk => ?_⟩
  have hc : dvContingencies brs.length s = s.security := by simp [dvContingencies, hs]
  rw [hc] at f2
  rw [f2 hb k failed hk]
  by_cases hh : (b : Int) + 1 = failed <;> simp [hh]

/-- **C52.** No two (scenario, branch) pairs share a flow variable. -/
theorem C52_distinct_partial (numbers : List Int) (brs : List DvBranchIn) (base : Rat) (s : DvSettings) (net : DvNet)
    (h : dvInitialise numbers brs base s = .ok net) (b b' k k' p : Nat) (h1 : flowVar net b k = some p)
    (h2 : flowVar net b' k' = some p) : b = b' ∧ k = k' := by
  obtain ⟨f1, f2, f3⟩ := flowVar_eq h b
  obtain ⟨g1, g2, g3⟩ := flowVar_eq h b'
  obtain ⟨hb, hk⟩ := f3 k p h1
  obtain ⟨hb', hk'⟩ := g3 k' p h2
  have f2 := f2 hb
  have g2 := g2 hb'
  have f1 := f1 hb
  have g1 := g1 hb'
  generalize hcs : dvContingencies brs.length s = cs at *
  have get : ∀ k, k < cs.length → ∃ xs, cs[k]? = some xs := fun k hk => ⟨_, List.getElem?_eq_getElem hk⟩
  have low : ∀ (b j : Nat) (xs : Int), b < brs.length → cs[j]? = some xs → (b : Int) + 1 ≠ xs → rankOf xs b < rankOf xs brs.length := by
    intro b j xs hb _ hne
    unfold rankOf
    split <;> split <;> omega
  cases k with
  | zero =>
    rw [f1, Option.some.injEq] at h1
    cases k' with
    | zero => rw [g1, Option.some.injEq] at h2; exact ⟨by omega, rfl⟩
    | succ k' =>
      obtain ⟨xs, hxs⟩ := get k' (by omega)
      rw [g2 k' xs hxs] at h2
      split at h2
      · cases h2
      · rw [Option.some.injEq] at h2; omega
  | succ k =>
    obtain ⟨xs, hxs⟩ := get k (by omega)
    rw [f2 k xs hxs] at h1
    split at h1
    · cases h1
    rename_i hne
    rw [Option.some.injEq] at h1
    cases k' with
    | zero => rw [g1, Option.some.injEq] at h2; omega
    | succ k' =>
      obtain ⟨xs', hxs'⟩ := get k' (by omega)
      rw [g2 k' xs' hxs'] at h2
      split at h2
      · cases h2
      rename_i hne'
      rw [Option.some.injEq] at h2
      have l1 := low b k xs hb hxs hne
      have l2 := low b' k' xs' hb' hxs' hne'
      rcases lt_trichotomy k k' with hlt | rfl | hlt
      · have := usedBy_le brs.length cs k k' xs hxs hlt (by omega)
        omega
      · rw [hxs, Option.some.injEq] at hxs'
        subst hxs'
        refine ⟨?_, rfl⟩
        have : rankOf xs b = rankOf xs b' := by omega
        unfold rankOf at this
        split at this <;> split at this <;> omega
      · have := usedBy_le brs.length cs k' k xs' hxs' hlt (by omega)
        omega

/-- **C52.** With valid contingencies exactly the `NoBranch` declared flow variables are used. -/
theorem C52_numbering_partial (numbers : List Int) (brs : List DvBranchIn) (base : Rat) (s : DvSettings) (net : DvNet)
    (h : dvInitialise numbers brs base s = .ok net) (hs : s.securityFlag = false)
    (hv : ∀ c ∈ s.security, 1 ≤ c ∧ c ≤ (brs.length : Int)) (p : Nat) :
    (∃ b k, flowVar net b k = some p) ↔ (p : Int) < nwNoBranch brs.length s := by
  have hc : dvContingencies brs.length s = s.security := by simp [dvContingencies, hs]
  have hn : nwNoBranch brs.length s = (brs.length : Int) + ((brs.length : Int) - 1) * s.security.length := by
    simp [nwNoBranch, nwSecurity, hs]
  rw [hn]
  constructor
  · rintro ⟨b, k, hp⟩
    obtain ⟨f1, f2, f3⟩ := flowVar_eq h b
    obtain ⟨hb, hk⟩ := f3 k p hp
    rw [hc] at f2 hk
    cases k with
    | zero =>
      rw [f1 hb, Option.some.injEq] at hp
      have : 0 ≤ ((brs.length : Int) - 1) * s.security.length := Int.mul_nonneg (by omega) (by omega)
      omega
    | succ k =>
      have hxs : s.security[k]? = some (s.security[k]'(by omega)) := List.getElem?_eq_getElem (by omega)
      generalize s.security[k]'(by omega) = xs at hxs
      rw [f2 hb k xs hxs] at hp
      split at hp
      · cases hp
      rename_i hne
      rw [Option.some.injEq, usedBy_valid _ _ k hv (by omega)] at hp
      have hx := hv xs (List.mem_of_getElem? hxs)
      have hr : rankOf xs b < brs.length - 1 := by
        unfold rankOf
        split <;> omega
      have h1 : (k + 1) * (brs.length - 1) ≤ s.security.length * (brs.length - 1) := Nat.mul_le_mul_right _ (by omega)
      have h2 : p < brs.length + s.security.length * (brs.length - 1) := by
        rw [Nat.add_mul] at h1
        omega
      have h3 : ((brs.length - 1 : Nat) : Int) = (brs.length : Int) - 1 := by omega
      calc (p : Int) < ((brs.length + s.security.length * (brs.length - 1) : Nat) : Int) := by exact_mod_cast h2
        _ = _ := by rw [Nat.cast_add, Nat.cast_mul, h3]; ring
  · intro hp
    by_cases hlt : p < brs.length
    · exact ⟨p, 0, (flowVar_eq h p).1 hlt⟩
    · obtain ⟨q, rfl⟩ : ∃ q, p = brs.length + q := ⟨p - brs.length, by omega⟩
      have hpos : 0 < brs.length - 1 := by
        by_contra h0
        have e : (brs.length : Int) - 1 ≤ 0 := by omega
        have : ((brs.length : Int) - 1) * s.security.length ≤ 0 := Int.mul_nonpos_of_nonpos_of_nonneg e (by omega)
        push_cast at hp
        omega
      have h3 : ((brs.length - 1 : Nat) : Int) = (brs.length : Int) - 1 := by omega
      have hq : q < (brs.length - 1) * s.security.length := by
        rw [← h3] at hp
        push_cast at hp
        have : (q : Int) < ((brs.length - 1 : Nat) : Int) * (s.security.length : Int) := by linarith
        exact_mod_cast this
      have hj : q / (brs.length - 1) < s.security.length := Nat.div_lt_of_lt_mul hq
      have ht : q % (brs.length - 1) < brs.length - 1 := Nat.mod_lt _ hpos
      have hdm := Nat.div_add_mod q (brs.length - 1)
      have hxs : s.security[q / (brs.length - 1)]? = some (s.security[q / (brs.length - 1)]) := List.getElem?_eq_getElem hj
      generalize s.security[q / (brs.length - 1)] = xs at hxs
      have hx := hv xs (List.mem_of_getElem? hxs)
      generalize hte : q % (brs.length - 1) = t at *
      generalize hje : q / (brs.length - 1) = j at *
      have key : ∃ b, b < brs.length ∧ (b : Int) + 1 ≠ xs ∧ rankOf xs b = t := by
        by_cases hc : (t : Int) + 1 < xs
        · refine ⟨t, by omega, by omega, ?_⟩
          unfold rankOf; rw [if_neg (by omega)]
        · refine ⟨t + 1, by omega, by push_cast; omega, ?_⟩
          unfold rankOf; rw [if_pos (by push_cast; omega)]; omega
      obtain ⟨b, hb, hne, hr⟩ := key
      refine ⟨b, j + 1, ?_⟩
      have f2 := (flowVar_eq h b).2.1 hb
      rw [hc] at f2
      rw [f2 j xs hxs, if_neg hne, usedBy_valid _ _ j hv (by omega), hr, Option.some.injEq]
      rw [Nat.mul_comm] at hdm
      omega

/-- **C52.** Voltage variables: bus `i` has variable `k * buses + i` in scenario `k`, and those are the declared ones. -/
theorem C52_voltages_partial (numbers : List Int) (brs : List DvBranchIn) (base : Rat) (s : DvSettings) (net : DvNet)
    (h : dvInitialise numbers brs base s = .ok net) (hs : s.securityFlag = false) (i k p : Nat) :
    (voltVar net i k = some p ↔ i < numbers.length ∧ k ≤ s.security.length ∧ p = k * numbers.length + i) ∧
    (i < numbers.length → k ≤ s.security.length → k * numbers.length + i < nwNoBuses numbers.length brs.length s) := by
  have hc : dvContingencies brs.length s = s.security := by simp [dvContingencies, hs]
  obtain ⟨_, _, d3, _, d5⟩ := dvInitialise_spec h
  rw [hc] at d5
  constructor
  · by_cases hi : i < numbers.length
    · obtain ⟨b, e1, _, _, _, _, e6, e7⟩ := d5 i _ (List.getElem?_eq_getElem hi)
      by_cases hk : k ≤ s.security.length
      · simp [voltVar, e1, e7 k hk, hi, hk, eq_comm]
      · simp only [voltVar, e1, Option.bind_some]
        rw [List.getElem?_eq_none (by omega)]
        simp [hk]
    · rw [voltVar, List.getElem?_eq_none (by omega)]
      simp [hi]
  · intro hi hk
    have hl : nwNoBuses numbers.length brs.length s = numbers.length * (1 + s.security.length) := by simp [nwNoBuses, nwSecurity, hs]
    rw [hl]
    have : k * numbers.length ≤ s.security.length * numbers.length := Nat.mul_le_mul_right _ hk
    rw [Nat.mul_add, Nat.mul_one, Nat.mul_comm numbers.length]
    omega

/-- **C52 fails** with `SecurityFlag`: the scenarios are numbered from zero, so that nothing fails in the first contingency,
the last branch never fails, and the last flow variable of the last scenario is not declared. -/
theorem C52_flag_violated (numbers : List Int) (brs : List DvBranchIn) (base : Rat) (s : DvSettings) (net : DvNet)
    (h : dvInitialise numbers brs base s = .ok net) (hf : s.securityFlag = true) (hs : s.security = []) (hn : 2 ≤ brs.length) :
    (∀ b, b < brs.length → ∃ p, flowVar net b 1 = some p) ∧
    (∀ k, k ≤ brs.length → ∃ p, flowVar net (brs.length - 1) k = some p) ∧
    ∃ p, flowVar net (brs.length - 1) brs.length = some p ∧ (p : Int) = nwNoBranch brs.length s := by
  have hc : dvContingencies brs.length s = (List.range brs.length).map (fun (x : Nat) => (x : Int)) := by
    simp [dvContingencies, hf]
  have get : ∀ j, j < brs.length → (dvContingencies brs.length s)[j]? = some (j : Int) := by
    intro j hj
    rw [hc, List.getElem?_map, List.getElem?_range hj]; rfl
  have used : ∀ k, k < brs.length → usedBy brs.length (dvContingencies brs.length s) (k + 1) = (k + 1) * (brs.length - 1) + 1 := by
    have e : dvContingencies brs.length s = 0 :: ((List.range (brs.length - 1)).map (fun (x : Nat) => (x : Int) + 1)) := by
      rw [hc]
      conv_lhs => rw [show brs.length = (brs.length - 1) + 1 by omega]
      rw [List.range_succ_eq_map]
      simp [Function.comp_def]
    intro k hk
    rw [e]
    simp only [usedBy]
    rw [usedBy_valid _ _ k (by intro c hcm; simp only [List.mem_map, List.mem_range] at hcm; obtain ⟨x, hx, rfl⟩ := hcm; omega)
      (by simp; omega)]
    unfold rankOf
    rw [if_neg (by omega), Nat.add_mul]
    omega
  refine ⟨fun b hb => ?_, fun k hk => ?_, ?_⟩
  · rw [(flowVar_eq h b).2.1 hb 0 _ (get 0 (by omega)), if_neg (by omega)]
    exact ⟨_, rfl⟩
  · cases k with
    | zero => exact ⟨_, (flowVar_eq h _).1 (by omega)⟩
    | succ k =>
      rw [(flowVar_eq h _).2.1 (by omega) k _ (get k (by omega)), if_neg (by omega)]
      exact ⟨_, rfl⟩
  · have e := (flowVar_eq h (brs.length - 1)).2.1 (by omega) (brs.length - 1) _ (get _ (by omega))
    rw [if_neg (by omega), show brs.length - 1 + 1 = brs.length by omega] at e
    refine ⟨_, e, ?_⟩
    have u := used (brs.length - 2) (by omega)
    rw [show brs.length - 2 + 1 = brs.length - 1 by omega] at u
    rw [u]
    have r : rankOf ((brs.length - 1 : Nat) : Int) (brs.length - 1) = brs.length - 2 := by
      unfold rankOf; rw [if_pos (by omega)]; omega
    rw [r]
    have hl : (nwSecurity brs.length s).length = brs.length := by simp [nwSecurity, hs, hf]
    unfold nwNoBranch
    rw [hl]
    obtain ⟨m, hm⟩ : ∃ m, brs.length = m + 2 := ⟨brs.length - 2, by omega⟩
    rw [hm]
    simp
    ring

/-- a triangle with two contingencies meets the hypotheses -/
example : ∃ net, dvInitialise [10, 20, 30] [⟨10, 20, 50⟩, ⟨20, 30, 60⟩, ⟨10, 30, 70⟩] 100 { security := [2, 3] } = .ok net ∧
    flowVar net 0 1 = some 3 ∧ flowVar net 1 1 = none ∧ flowVar net 2 1 = some 4 ∧ flowVar net 1 2 = some 6 ∧
    voltVar net 1 2 = some 7 := by
  refine ⟨_, rfl, ?_⟩
  decide +kernel

/-! ## C101: connections -/

theorem branchesAt_eq (numbers : List Int) (sel : DvBranchIn → Int) (p : Nat) : ∀ (brs : List DvBranchIn) (k : Nat),
    branchesAt numbers sel p brs k = ((List.range brs.length).filter (fun i => ((brs[i]?).bind (fun br => busAt numbers (sel br))) = some p)).map (k + ·) := by
  intro brs
  induction brs with
  | nil => intro k; rfl
  | cons br brs ih =>
    intro k
    rw [branchesAt, ih (k + 1), List.length_cons, List.range_succ_eq_map, List.filter_cons, List.filter_map]
    have e : ∀ l : List Nat, List.map (fun x => k + 1 + x) l = List.map (fun x => k + x) (List.map Nat.succ l) := by
      intro l; rw [List.map_map]; apply List.map_congr_left; intro x _; simp; omega
    by_cases h : busAt numbers (sel br) = some p
    · simp only [h, if_true, List.getElem?_cons_zero, Option.bind_some, decide_true, List.map_cons, Nat.add_zero, List.cons_append, List.nil_append]
      rw [e]; rfl
    · simp only [h, if_false, List.getElem?_cons_zero, Option.bind_some, decide_false, List.nil_append, Bool.false_eq_true]
      rw [e]; rfl

theorem flowsOf_spec (branches : List DvBranch) (xs : Nat) (hx : ∀ b ∈ branches, xs < b.n1.length) : ∀ l : List Nat, (∀ i ∈ l, i < branches.length) →
    flowsOf branches xs l = .ok (l.filterMap (fun i => (branches[i]?).bind (fun br => (br.n1[xs]?).join))) := by
  intro l
  induction l with
  | nil => intro _; rfl
  | cons i l ih =>
    intro h
    have hi : i < branches.length := h i (by simp)
    have hb : branches[i]? = some branches[i] := List.getElem?_eq_getElem hi
    have hn := hx branches[i] (List.getElem_mem hi)
    generalize branches[i] = b at *
    have hv : b.n1[xs]? = some b.n1[xs] := List.getElem?_eq_getElem hn
    generalize b.n1[xs] = v at *
    unfold flowsOf
    simp only [DvBranch.getN1, (pyGet_nat_iff _ _ _).2 hb, (pyGet_nat_iff _ _ _).2 hv, bind, Except.bind, ih (fun j hj => h j (by simp [hj]))]
    rw [List.filterMap_cons]
    simp only [hb, Option.bind_some, hv, Option.join_some]
    cases v <;> rfl

/-- **C101.** After `initialise` every branch knows the positions of the (first) buses with its two numbers and its rating per
unit, and in every scenario the flows that leave from a bus (arrive at it) are exactly those of the branches in service that
start (end) there, in the order of the case. -/
theorem C101_connections_partial (numbers : List Int) (brs : List DvBranchIn) (base : Rat) (s : DvSettings) (net : DvNet)
    (h : dvInitialise numbers brs base s = .ok net) :
    (∀ (i : Nat) (br : DvBranchIn), brs[i]? = some br → ∃ b, net.branches[i]? = some b ∧ busAt numbers br.fbus = some b.fpos ∧
      busAt numbers br.tbus = some b.tpos ∧ b.rate = br.rate / base) ∧
    ∀ (n k : Nat), n < numbers.length → k ≤ net.securityNo →
      getFlowF net n k = .ok ((List.range brs.length).filterMap (fun i =>
        if ((brs[i]?).bind (fun br => busAt numbers br.fbus)) = some n then flowVar net i k else none)) ∧
      getFlowT net n k = .ok ((List.range brs.length).filterMap (fun i =>
        if ((brs[i]?).bind (fun br => busAt numbers br.tbus)) = some n then flowVar net i k else none)) := by
  obtain ⟨d1, d2, d3, d4, d5⟩ := dvInitialise_spec h
  refine ⟨fun i br hi => ?_, fun n k hn hk => ?_⟩
  · obtain ⟨b, e1, e2, e3, _, e5, _⟩ := d4 i br hi
    exact ⟨b, e1, e2, e3, e5⟩
  · obtain ⟨b, e1, _, e3, e4, _⟩ := d5 n _ (List.getElem?_eq_getElem hn)
    have hlen : ∀ b ∈ net.branches, k < b.n1.length := by
      intro b hb
      obtain ⟨i, hi, rfl⟩ := List.mem_iff_getElem.1 hb
      obtain ⟨b', g1, _, _, _, _, g6, _⟩ := d4 i brs[i] (List.getElem?_eq_getElem (by omega))
      rw [List.getElem?_eq_getElem hi, Option.some.injEq] at g1
      rw [g1, g6]; omega
    have hfm : ∀ (q : Nat → Bool) (f : Nat → Option Nat) (l : List Nat), (l.filter q).filterMap f = l.filterMap (fun i => if q i = true then f i else none) := by
      intro q f l
      induction l with
      | nil => rfl
      | cons a l ih =>
        rw [List.filter_cons, List.filterMap_cons]
        by_cases hq : q a = true
        · simp only [hq, if_true]
          rw [List.filterMap_cons, ih]
        · simp only [hq]
          simpa using ih
    have side : ∀ (sel : DvBranchIn → Int), flowsOf net.branches k (branchesAt numbers sel n brs 0) =
        .ok ((List.range brs.length).filterMap (fun i => if ((brs[i]?).bind (fun br => busAt numbers (sel br))) = some n then flowVar net i k else none)) := by
      intro sel
      rw [branchesAt_eq]
      rw [show (fun x => 0 + x) = (id : Nat → Nat) from by funext x; simp, List.map_id]
      rw [flowsOf_spec _ _ hlen _ (by
        intro i hi
        have := (List.mem_filter.1 hi).1
        rw [List.mem_range] at this
        omega)]
      rw [hfm]
      simp only [decide_eq_true_eq, flowVar]
    constructor
    · unfold getFlowF
      rw [(pyGet_nat_iff _ _ _).2 e1]
      simp only [bind, Except.bind]
      rw [e3]; exact side _
    · unfold getFlowT
      rw [(pyGet_nat_iff _ _ _).2 e1]
      simp only [bind, Except.bind]
      rw [e4]; exact side _

/-- **C101.** `initialise` succeeds for every case whose branches join known buses, with a base and at most one load type per
bus, and raises an IndexError for a branch to an unknown bus. -/
theorem C101_succeeds_partial (numbers : List Int) (brs : List DvBranchIn) (base : Rat) (s : DvSettings) (hb : base ≠ 0)
    (h : ∀ br ∈ brs, br.fbus ∈ numbers ∧ br.tbus ∈ numbers) (hl : s.loadType.length ≤ numbers.length ∨ s.loadType.length ≤ 1) :
    ∃ net, dvInitialise numbers brs base s = .ok net := by
  have hnum : (List.map (fun x : DvBus => x.number) (List.map (fun n : Int => ({ number := n } : DvBus)) numbers)) = numbers := by
    simp [Function.comp_def]
  obtain ⟨r, hr⟩ := matchBranches_total base (dvContingencies brs.length s).length hb brs 0 (numbers.map (fun n => { number := n }))
    (by rw [hnum]; exact h)
  have hlen := (matchBranches_spec _ _ _ _ _ _ hr).2.2.1
  have : ∃ bs, loadTypes s.loadType (busTables (dvContingencies brs.length s).length r.1) = .ok bs := by
    unfold loadTypes
    split
    · exact ⟨_, rfl⟩
    · split <;> exact ⟨_, rfl⟩
    · rename_i x y
      rw [if_neg]
      · exact ⟨_, rfl⟩
      · simp only [busTables, List.length_map, List.length_zipIdx, hlen]
        rcases hl with hl | hl
        · omega
        · exfalso
          match hm : s.loadType, x, y with
          | [], x, _ => exact x rfl
          | [v], _, y => exact y v rfl
          | _ :: _ :: _, _, _ => rw [hm] at hl; simp at hl
  obtain ⟨bs, hbs⟩ := this
  unfold dvInitialise
  simp only [bind, Except.bind, hr, hbs]
  exact ⟨_, rfl⟩

theorem C101_unknown_bus_partial (numbers : List Int) (brs : List DvBranchIn) (base : Rat) (s : DvSettings)
    (br : DvBranchIn) (hbr : br ∈ brs) (h : br.fbus ∉ numbers ∨ br.tbus ∉ numbers) : ∀ net, dvInitialise numbers brs base s ≠ .ok net := by
  intro net hn
  obtain ⟨_, _, _, d4, _⟩ := dvInitialise_spec hn
  obtain ⟨i, hi, rfl⟩ := List.mem_iff_getElem.1 hbr
  obtain ⟨b, _, e2, e3, _⟩ := d4 i _ (List.getElem?_eq_getElem hi)
  have mem : ∀ (x : Int) (p : Nat), busAt numbers x = some p → x ∈ numbers := by
    intro x p hp
    unfold busAt at hp
    rw [List.findIdx?_eq_some_iff_getElem] at hp
    obtain ⟨hlt, hx, _⟩ := hp
    have : numbers[p] = x := by simpa using hx
    exact this ▸ List.getElem_mem hlt
  rcases h with h | h
  · exact h (mem _ _ e2)
  · exact h (mem _ _ e3)

/-- **C101 fails** for a single rural load type: the list is stored instead of the type. -/
theorem C101_load_type_violated (numbers : List Int) (brs : List DvBranchIn) (base : Rat) (s : DvSettings) (net : DvNet)
    (hs : s.loadType = [1]) (h : dvInitialise numbers brs base s = .ok net) : ∀ b ∈ net.buses, b.loadType = .list [1] := by
  unfold dvInitialise at h
  rw [except_bind_ok] at h
  obtain ⟨r, hr, h⟩ := h
  rw [except_bind_ok] at h
  obtain ⟨buses, hb, h⟩ := h
  simp only [Except.ok.injEq] at h
  rw [hs] at hb
  simp only [loadTypes, if_true, Except.ok.injEq] at hb
  have hbuses : ∀ (i : Nat) (b : DvBus), buses[i]? = some b → b.loadType = .list [1] := by
    intro i b hib
    rw [← hb, List.getElem?_map] at hib
    cases hx : (busTables (dvContingencies brs.length s).length r.1)[i]? with
    | none => rw [hx] at hib; cases hib
    | some y => rw [hx] at hib; simp only [Option.map_some, Option.some.injEq] at hib; rw [← hib]
  obtain ⟨u1, u2⟩ := scenarioLoop_buses (dvContingencies brs.length s) 0 brs.length buses r.2
  intro b hmem
  rw [← h] at hmem
  have key : ∀ b ∈ (scenarioLoop (dvContingencies brs.length s) 0 brs.length buses r.2).1, b.loadType = .list [1] := by
    intro b hb
    obtain ⟨i, hi, rfl⟩ := List.mem_iff_getElem.1 hb
    have hi' : i < buses.length := by omega
    obtain ⟨b', g1, _, _, _, g5, _⟩ := u2 i _ (List.getElem?_eq_getElem hi')
    rw [List.getElem?_eq_getElem hi, Option.some.injEq] at g1
    rw [g1, g5]
    exact hbuses i _ (List.getElem?_eq_getElem hi')
  simp only at hmem
  unfold lossLists at hmem
  split at hmem
  · rw [List.mem_map] at hmem
    obtain ⟨b0, hb0, rfl⟩ := hmem
    exact key b0 hb0
  · exact key b hmem

end Pyensys
