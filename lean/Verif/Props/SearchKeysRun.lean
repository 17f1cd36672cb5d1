import Verif.Props.SearchKeys

/-!
# C20 fails during an actual run

A root with four children, each with one child; two lines, every OPF feasible at no cost.  The states
below were obtained by running the model; that the search really passes through them is what the
theorem checks.
-/

namespace Pyensys

private def v0 : BinVar := (opt 0 10 0).2
private def v1 : BinVar := (opt 1 20 0).2

/-- root 0 - {1, 2, 3, 4}, each `i` with the single child `i + 4` -/
def broomTree : Cfg :=
  { pool := [(0, v0), (1, v1)], nodes := [0, 1, 2, 3, 4, 5, 6, 7, 8],
    nbr := graphOf [[1, 2, 3, 4], [5], [6], [7], [8]], years := [2020, 2030, 2040], rate := 0,
    opf := fun _ _ => (true, 0) }

/-- the state in which node 2 is entered for the second time -/
def broomAt2 : Info :=
  { incInt := [(0, [(0, []), (1, []), (2, [])]), (1, [(0, []), (1, []), (2, [])]), (2, [(0, []),
      (1, []), (2, [])])],
    incOp := [(0, 0), (1, 0), (2, 0)],
    incInv := [(0, 0), (1, 0), (2, 0)],
    incPaths := [(0, [(0, 0), (1, 1), (2, 5)]), (1, [(0, 0), (1, 2), (2, 6)]), (2, [(0, 0), (1,
      3), (2, 7)])],
    candPath := [(0, 0)],
    candOp := [(0, 0)],
    candInt := [(0, [(0, v0)])],
    candTime := [(0, [(0, -20)])],
    newInt := [],
    newTime := [],
    complete := ⟨[(0, [(0, []), (1, []), (2, [])]), (1, [(0, []), (1, []), (2, [])]), (2, [(0,
      []), (1, []), (2, [])]), (3, [(0, []), (1, []), (2, [])])], [(0, 0), (1, 0), (2, 0), (3,
      0)], [(0, 0), (1, 0), (2, 0), (3, 0)], [(0, [(0, 0), (1, 1), (2, 5)]), (1, [(0, 0), (1,
      2), (2, 6)]), (2, [(0, 0), (1, 3), (2, 7)]), (3, [(0, 0), (1, 4), (2, 8)])]⟩,
    partialTree := ⟨[(0, [(0, []), (1, []), (2, [])]), (1, [(0, []), (1, []), (2, [])]), (2,
      [(0, []), (1, []), (2, [])])], [(0, 0), (1, 0), (2, 0)], [(0, 0), (1, 0), (2, 0)], [(0,
      [(0, 0), (1, 1), (2, 5)]), (1, [(0, 0), (1, 2), (2, 6)]), (2, [(0, 0), (1, 3), (2, 7)])]⟩,
    node := 2,
    level := 1,
    allowDel := true,
    lastReached := true,
    log := [⟨0, []⟩, ⟨1, []⟩, ⟨5, []⟩, ⟨5, [v0]⟩, ⟨5, [v1]⟩, ⟨5, [v0, v1]⟩, ⟨1, [v0]⟩, ⟨5,
      [v0]⟩, ⟨5, [v0, v1]⟩, ⟨1, [v1]⟩, ⟨5, [v1]⟩, ⟨5, [v1, v0]⟩, ⟨1, [v0, v1]⟩, ⟨5, [v0, v1]⟩,
      ⟨2, []⟩, ⟨6, []⟩, ⟨6, [v0]⟩, ⟨6, [v1]⟩, ⟨6, [v0, v1]⟩, ⟨2, [v0]⟩, ⟨6, [v0]⟩, ⟨6, [v0,
      v1]⟩, ⟨2, [v1]⟩, ⟨6, [v1]⟩, ⟨6, [v1, v0]⟩, ⟨2, [v0, v1]⟩, ⟨6, [v0, v1]⟩, ⟨3, []⟩, ⟨7, []⟩,
      ⟨7, [v0]⟩, ⟨7, [v1]⟩, ⟨7, [v0, v1]⟩, ⟨3, [v0]⟩, ⟨7, [v0]⟩, ⟨7, [v0, v1]⟩, ⟨3, [v1]⟩, ⟨7,
      [v1]⟩, ⟨7, [v1, v0]⟩, ⟨3, [v0, v1]⟩, ⟨7, [v0, v1]⟩, ⟨4, []⟩, ⟨8, []⟩, ⟨8, [v0]⟩, ⟨8,
      [v1]⟩, ⟨8, [v0, v1]⟩, ⟨4, [v0]⟩, ⟨8, [v0]⟩, ⟨8, [v0, v1]⟩, ⟨4, [v1]⟩, ⟨8, [v1]⟩, ⟨8, [v1,
      v0]⟩, ⟨4, [v0, v1]⟩, ⟨8, [v0, v1]⟩, ⟨0, [v0]⟩, ⟨1, [v0]⟩, ⟨5, [v0]⟩, ⟨5, [v0, v1]⟩, ⟨1,
      [v0, v1]⟩, ⟨5, [v0, v1]⟩],
    lastCost := 0 }

/-- the state in which node 6 is entered below it with both lines chosen -/
def broomAt6 : Info :=
  { incInt := [(0, [(0, []), (1, []), (2, [])]), (0, [(0, []), (1, []), (2, [])])],
    incOp := [(0, 0), (0, 0)],
    incInv := [(0, 0), (0, 0)],
    incPaths := [(0, [(0, 0), (1, 1), (2, 5)]), (0, [(0, 0), (1, 3), (2, 7)])],
    candPath := [(0, 0), (1, 2)],
    candOp := [(0, 0), (1, 0)],
    candInt := [(0, [(0, v0)]), (1, [(1, v1)])],
    candTime := [(0, [(0, -40)]), (1, [(1, 0)])],
    newInt := [(1, v1)],
    newTime := [(1, 0)],
    complete := ⟨[(0, [(0, []), (1, []), (2, [])]), (1, [(0, []), (1, []), (2, [])]), (2, [(0,
      []), (1, []), (2, [])]), (3, [(0, []), (1, []), (2, [])])], [(0, 0), (1, 0), (2, 0), (3,
      0)], [(0, 0), (1, 0), (2, 0), (3, 0)], [(0, [(0, 0), (1, 1), (2, 5)]), (1, [(0, 0), (1,
      2), (2, 6)]), (2, [(0, 0), (1, 3), (2, 7)]), (3, [(0, 0), (1, 4), (2, 8)])]⟩,
    partialTree := ⟨[(0, [(0, []), (1, []), (2, [])]), (1, [(0, []), (1, []), (2, [])]), (2,
      [(0, []), (1, []), (2, [])])], [(0, 0), (1, 0), (2, 0)], [(0, 0), (1, 0), (2, 0)], [(0,
      [(0, 0), (1, 1), (2, 5)]), (1, [(0, 0), (1, 2), (2, 6)]), (2, [(0, 0), (1, 3), (2, 7)])]⟩,
    node := 6,
    level := 2,
    allowDel := true,
    lastReached := true,
    log := [⟨0, []⟩, ⟨1, []⟩, ⟨5, []⟩, ⟨5, [v0]⟩, ⟨5, [v1]⟩, ⟨5, [v0, v1]⟩, ⟨1, [v0]⟩, ⟨5,
      [v0]⟩, ⟨5, [v0, v1]⟩, ⟨1, [v1]⟩, ⟨5, [v1]⟩, ⟨5, [v1, v0]⟩, ⟨1, [v0, v1]⟩, ⟨5, [v0, v1]⟩,
      ⟨2, []⟩, ⟨6, []⟩, ⟨6, [v0]⟩, ⟨6, [v1]⟩, ⟨6, [v0, v1]⟩, ⟨2, [v0]⟩, ⟨6, [v0]⟩, ⟨6, [v0,
      v1]⟩, ⟨2, [v1]⟩, ⟨6, [v1]⟩, ⟨6, [v1, v0]⟩, ⟨2, [v0, v1]⟩, ⟨6, [v0, v1]⟩, ⟨3, []⟩, ⟨7, []⟩,
      ⟨7, [v0]⟩, ⟨7, [v1]⟩, ⟨7, [v0, v1]⟩, ⟨3, [v0]⟩, ⟨7, [v0]⟩, ⟨7, [v0, v1]⟩, ⟨3, [v1]⟩, ⟨7,
      [v1]⟩, ⟨7, [v1, v0]⟩, ⟨3, [v0, v1]⟩, ⟨7, [v0, v1]⟩, ⟨4, []⟩, ⟨8, []⟩, ⟨8, [v0]⟩, ⟨8,
      [v1]⟩, ⟨8, [v0, v1]⟩, ⟨4, [v0]⟩, ⟨8, [v0]⟩, ⟨8, [v0, v1]⟩, ⟨4, [v1]⟩, ⟨8, [v1]⟩, ⟨8, [v1,
      v0]⟩, ⟨4, [v0, v1]⟩, ⟨8, [v0, v1]⟩, ⟨0, [v0]⟩, ⟨1, [v0]⟩, ⟨5, [v0]⟩, ⟨5, [v0, v1]⟩, ⟨1,
      [v0, v1]⟩, ⟨5, [v0, v1]⟩, ⟨2, [v0]⟩, ⟨6, [v0]⟩, ⟨6, [v0, v1]⟩, ⟨2, [v0, v1]⟩],
    lastCost := 0 }

theorem broomTree_wf : WellFormed broomTree 6 :=
  ⟨by decide, by decide, 2, by simp [HeightLe, broomTree, graphOf], by omega, by decide⟩

/-- C20 fails in a run on a well-formed problem: the incumbent holds two solutions under key 0. -/
theorem C20_violated_in_run : ∃ (cfg : Cfg) (fuel : Nat) (b : Info), WellFormed cfg fuel ∧
    Moment cfg fuel b ∧ b.incPaths.map (·.1) = [0, 0] := by
  refine ⟨broomTree, 6, broomAt6, broomTree_wf, Or.inl ⟨4, ?_⟩, rfl⟩
  refine .call (.call (a := {}) (b := broomAt2) .start ?_) ?_
  · unfold CallsAt; decide +kernel
  · unfold CallsAt; decide +kernel

end Pyensys
