import Verif.Props.SavedPrint

/-!
# C192-C194: examples
-/

namespace Pyensys

/-- a unit with 3 per unit (300 MW) feeds a demand of 4 over two lines -/
def exSr (cont : Nat) (res : List GnRes) (pumps : List (Rat × Rat)) (loss : Option Rat) (feas : Bool) : GnCase :=
  ⟨1, 1, [⟨[(2, 0)], 0, 3, 1, 1, true⟩], res, [], pumps, exGn.buses, exGn.branches, cont, [1], [1], 0, [2], 100, loss, none, feas, true⟩

def exSrPoint : List Rat := [3, 12, 3/2, 3/2, 0, 1, 0, 0, 0, -3/2]

/-- the hypotheses of C192, C193 and C194 are met: 300 MW are generated, 100 MW are curtailed -/
theorem C193_witness : ∃ p lp, gnRun (exSr 0 [] [] none true) = .ok (p, lp) ∧ SrKnown (exSr 0 [] [] none true) ∧ SrPlain (exSr 0 [] [] none true) ∧ GnOut (exSr 0 [] [] none true) ∧
    GFeasible lp (gAt exSrPoint) ∧
    srSave (exSr 0 [] [] none true) p (gAt exSrPoint) (fun _ _ _ _ => 0) = .ok [[⟨0, 300, 0, 0, 400, 0, 0, 100, 0, 0, [], []⟩]] ∧
    (srPrint (exSr 0 [] [] none true) p (gAt exSrPoint) (fun _ _ _ _ => 0)).toOption.map (fun l => l.map (fun s => (s.demand.1, s.thermal.1, s.curtailment.2))) =
      some [(400, 300, 100 :: List.replicate 23 0)] := by
  have h : okAnd (gnRun (exSr 0 [] [] none true)) (fun r => gCheck r.2 exSrPoint && (decide ((srSave (exSr 0 [] [] none true) r.1 (gAt exSrPoint) (fun _ _ _ _ => 0)).toOption =
      some [[⟨0, 300, 0, 0, 400, 0, 0, 100, 0, 0, [], []⟩]]) &&
    decide ((srPrint (exSr 0 [] [] none true) r.1 (gAt exSrPoint) (fun _ _ _ _ => 0)).toOption.map (fun l => l.map (fun s => (s.demand.1, s.thermal.1, s.curtailment.2))) =
      some [(400, 300, 100 :: List.replicate 23 0)]))) = true := by decide +kernel
  obtain ⟨r, hr, h⟩ := okAnd_iff.1 h
  rw [Bool.and_eq_true, Bool.and_eq_true, decide_eq_true_eq, decide_eq_true_eq] at h
  refine ⟨r.1, r.2, hr, fun _ => .inr rfl, ⟨⟨by decide, by decide, by decide, by decide, by decide⟩, by decide, ?_⟩, ?_, gCheck_ok h.1, ?_, h.2.2⟩
  · intro q hq
    simp [exSr] at hq
  · intro k h1 h2
    simp only [exSr] at h2
    omega
  · have := h.2.1
    cases e : srSave (exSr 0 [] [] none true) r.1 (gAt exSrPoint) (fun _ _ _ _ => 0) with
    | error e' => rw [e] at this; simp [Except.toOption] at this
    | ok v => rw [e] at this; simpa [Except.toOption] using this

/-- **C193 fails** with contingencies: the curtailment of the intact network and that after the failure are added, 300 + 200 against a demand of 400. -/
theorem C193_contingency_violated : okAnd (gnRun (exSr 1 [] [] none true)) (fun r => gCheck r.2 [3, 12, 3/2, 3/2, 0, 1, 0, 0, 0, -3/2, 0, 3, 0, 1, 0, 0, 0, -3] &&
    decide ((srSave (exSr 1 [] [] none true) r.1 (gAt [3, 12, 3/2, 3/2, 0, 1, 0, 0, 0, -3/2, 0, 3, 0, 1, 0, 0, 0, -3]) (fun _ _ _ _ => 0)).toOption =
      some [[⟨0, 300, 0, 0, 400, 0, 0, 200, 0, 0, [], []⟩]])) = true := by decide +kernel

/-- **C193 fails** with pumps: they are in the balance of both buses, so 300 MW and 300 MW of curtailment meet a demand of 400 and a pump with 100. -/
theorem C193_pumps_violated : okAnd (gnRun (exSr 0 [] [(100, 5)] none true)) (fun r => gCheck r.2 [3, 12, 1, 1, 1, 0, 3, 0, 0, 0, -1] &&
    decide ((srSave (exSr 0 [] [(100, 5)] none true) r.1 (gAt [3, 12, 1, 1, 1, 0, 3, 0, 0, 0, -1]) (fun _ _ _ _ => 0)).toOption =
      some [[⟨0, 300, 0, 0, 400, 100, 0, 300, 0, 0, [], []⟩]])) = true := by decide +kernel

/-- the hypotheses of `C192_gen_cur_violated` and `C194_feasibility_violated` are met: 100 MW of renewable generation are saved as curtailed, and nothing can be printed -/
theorem C192_gen_cur_witness : okAnd (gnRun (exSr 0 [⟨[(1, 0)], 0, 1, 1, [0]⟩] [] none false)) (fun r => gCheck r.2 [3, 1, 12, 2, 2, 2, 0, -2] &&
    (decide ((srSave (exSr 0 [⟨[(1, 0)], 0, 1, 1, [0]⟩] [] none false) r.1 (gAt [3, 1, 12, 2, 2, 2, 0, -2]) (fun _ _ _ _ => 0)).toOption =
      some [[⟨0, 300, 0, 100, 400, 0, 0, 0, 0, 100, [100], []⟩]]) &&
    decide ((srPrint (exSr 0 [⟨[(1, 0)], 0, 1, 1, [0]⟩] [] none false) r.1 (gAt [3, 1, 12, 2, 2, 2, 0, -2]) (fun _ _ _ _ => 0)).toOption = none))) = true := by decide +kernel

/-- the hypotheses of `C192_percentage_violated` are met -/
theorem C192_percentage_witness : okAnd (gnRun (exSr 0 [] [] (some (1/10)) true)) (fun r => decide ((srSave (exSr 0 [] [] (some (1/10)) true) r.1 (gAt exSrPoint) (fun _ _ _ _ => 0)).toOption = none)) = true := by
  decide +kernel

/-- profiles of two scenarios with two periods -/
theorem C192_profiles_witness : srProfiles 2 2 [1, 2, 3, 4, 5] 10 = .ok [[10, 20], [30, 40]] ∧ srProfiles 2 3 [1, 2, 3, 4, 5] 10 = .error .index := by
  constructor
  · have : (srProfiles 2 2 [1, 2, 3, 4, 5] 10).toOption = some [[10, 20], [30, 40]] := by decide +kernel
    cases e : srProfiles 2 2 [1, 2, 3, 4, 5] 10 with
    | error e' => rw [e] at this; simp [Except.toOption] at this
    | ok v => rw [e] at this; simpa [Except.toOption] using this
  · rfl

end Pyensys
