import Verif.Model.Coupled

/-!
# Model of the report of the command run-en

Source: pyensys/cases.py (CA below): the end of `test_pyene` (CA:147-292), for both solvers.

Modelled: the figures of pumps, spilled renewables and curtailment that are printed. Simplifications: floats are rationals, the figures are the result; the lines of hydropower and the objective are left out. The arrays of the GLPK model are functions of instance, period, case and position (C174 relates them to the solution); they are in MW.
-/

namespace Pyensys

/-- `value += f`, over the periods of all instances, CA:238-242, 252-260, 281-290 -/
def rrLoop (noInst noTime : Nat) (f : Nat → Nat → Rat) : Rat :=
  (List.range noInst).foldl (fun value xh => (List.range noTime).foldl (fun value xt => value + f xh xt) value) 0

/-- the pumps with GLPK, CA:232-244 -/
def rrPumps (noInst noTime noPump : Nat) (op : Nat → Nat → Nat → Rat) : List Rat := (List.range noPump).map (fun xp => rrLoop noInst noTime (fun xh xt => op xh xt xp))

/-- the spilled energy with GLPK, CA:246-262: capacity (per unit) times profile times base, less the generation -/
def rrSpill (noInst noTime noRES : Nat) (base : Rat) (cap : Nat → Rat) (profile gen : Nat → Nat → Nat → Rat) : List Rat :=
  (List.range noRES).map (fun xp => rrLoop noInst noTime (fun xh xt => cap xp * profile xh xt xp * base - gen xh xt xp))

/-- the curtailment with GLPK and a network, CA:272-291: all cases (`cont` contingencies) and buses -/
def rrCurtailed (noInst noTime cont noBus : Nat) (lc : Nat → Nat → Nat → Nat → Rat) : Rat :=
  rrLoop noInst noTime (fun xs xt => ((List.range (cont + 1)).map (fun k => ((List.range noBus).map (fun ii => lc xs xt k ii)).sum)).sum)

/-- `get_RES(mod, resOutNode)`, CA:188: the argument is an object, from which 1 cannot be subtracted (MA:622) -/
def rrRes : Except PyErr Rat := .error .type

/-- the figures with Pyomo, CA:175-203: pumps, renewables, curtailment -/
def rrPyomo (x : ApiData) (v : ApiVals) (noRES : Nat) : Except PyErr (List Rat × List Rat × (Rat × Rat × Rat)) := do
  let p ← (List.range x.sizes.noPump).mapM (fun xp => getPump x v {} (xp + 1))
  let r ← (List.range noRES).mapM (fun _ => rrRes)
  let c ← getAllCurtailment x v {}
  .ok (p, r, c)

end Pyensys
