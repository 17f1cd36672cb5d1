import Verif.Py
import Mathlib.Algebra.Order.Ring.Rat
import Mathlib.Data.Rat.Floor

/-!
# Model of the generation cost curves and of the objective of the network engine

Source: pyensys/engines/pyeneD.py (DV below) and pyensys/engines/pyeneN.py (NW below).

Modelled: `GenClass.set_CostCurve` (DV:936-985), the rule `cNEGenC_rule` and its auxiliary (DV:727-748), the default costs
of hydropower and RES units (DV:196-199 and 223-226) and the objective `ENetworkClass.OF_rule` (NW:771-784).

Simplifications: floats are rationals (in particular `Max/(Max/3)` is exactly 3, where the float quotient may fall just
below it); a division by zero of two numpy numbers, which gives `inf` or `nan` and a warning, is `none`; a division of
the capacity by a zero step raises `ZeroDivisionError` (Python floats; numpy floats would raise `OverflowError` at
`int(inf)`).
-/

namespace Pyensys

/-- the cost data of a generator, DV:120-122: `MODEL`, `NCOST`, `COST` -/
structure GenCostData where
  model : Int
  ncost : Nat
  cost : List Rat
  deriving DecidableEq, Repr

/-- the cost data given to hydropower (DV:196-199) and RES (DV:223-226) units: one line through the origin -/
def unitCost (c : Rat) : GenCostData := ⟨1, 2, [0, 0, 1, c]⟩

/-- the points of a piece-wise linear model: `for x in range(NoPieces)`, DV:945-948; `xp` advances by two -/
def pwPoints (cost : List Rat) : Nat → Nat → Except PyErr (List (Rat × Rat))
  | 0, _ => .ok []
  | n + 1, xp => do
      let x ← pyGet cost (xp : Int)
      let y ← pyGet cost ((xp + 1 : Nat) : Int)
      let rest ← pwPoints cost n (xp + 2)
      .ok ((x, y) :: rest)

/-- the inner loop of the polynomial model: `for x in range(1, NCOST): xc -= 1; y += COST[xc]*xval**x`, DV:971-973 -/
def gcLoop (cost : List Rat) (xv : Rat) : Nat → Nat → Int → Rat → Except PyErr Rat
  | 0, _, _, y => .ok y
  | n + 1, x, xc, y => do
      let c ← pyGet cost (xc - 1)
      gcLoop cost xv n (x + 1) (xc - 1) (y + c * xv ^ x)

/-- the value stored for a break point, DV:969-973 -/
def gcValue (d : GenCostData) (xv : Rat) : Except PyErr Rat := do
  let y ← pyGet d.cost ((d.ncost : Int) - 1)
  gcLoop d.cost xv (d.ncost - 1) 1 ((d.ncost : Int) - 1) y

/-- the break points of the polynomial model: `for xp in range(NoPieces+1): … aux += Delta`, DV:967-974 -/
def gcPoints (d : GenCostData) (delta : Rat) : Nat → Rat → Except PyErr (List (Rat × Rat))
  | 0, _ => .ok []
  | n + 1, aux => do
      let y ← gcValue d aux
      let rest ← gcPoints d delta n (aux + delta)
      .ok ((aux, y) :: rest)

/-- the step of the polynomial model, DV:954-961; `pieces` is `sett['Pieces']` -/
def gcStep (d : GenCostData) (max : Rat) (pieces : List Rat) (xNo : Nat) : Except PyErr Rat :=
  match pieces with
  | [] => do
      let c0 ← pyGet d.cost 0
      if c0 ≠ 0 then .ok (max / 3) else .ok max
  | [p] => .ok p
  | _ => pyGet pieces (xNo : Int)

/-- one row of `LCost`, DV:978-983: slope per unit and intercept of the line through two consecutive points;
`none` when the two points have the same abscissa (numpy gives `inf` or `nan`) -/
def gcLine (base : Rat) (a b : Rat × Rat) : Option (Rat × Rat) :=
  if b.1 - a.1 = 0 then none
  else
    let s := (b.2 - a.2) / (b.1 - a.1)
    some (s * base, a.2 - a.1 * s)

/-- `for xv in range(NoPieces)`: the rows of `LCost`, DV:977-983 -/
def gcLines (base : Rat) (pts : List (Rat × Rat)) : List (Option (Rat × Rat)) :=
  List.zipWith (gcLine base) pts pts.tail

/-- `GenClass.set_CostCurve`, DV:936-985: the table `LCost` (its length is `NoPieces`).  A negative number of pieces makes
`np.zeros` raise `ValueError` -/
def setCostCurve (d : GenCostData) (max min : Rat) (pieces : List Rat) (xNo : Nat) (base : Rat) :
    Except PyErr (List (Option (Rat × Rat))) :=
  if d.model = 1 then do
    let pts ← pwPoints d.cost d.ncost 0
    if d.ncost = 0 then .error .value else .ok (gcLines base pts)
  else do
    let delta ← gcStep d max pieces xNo
    if delta = 0 then .error .zeroDivision
    else if ⌊max / delta⌋ < 0 then .error .value
    else do
      let pts ← gcPoints d delta (⌊max / delta⌋.toNat + 1) min
      .ok (gcLines base pts)

/-- `cNEGenC_rule` for piece `xc`, DV:727-748: `vNGCost/w >= vNGen*M1 + M2`; pieces beyond `NoPieces` are skipped, a line
that is not a number cannot be satisfied -/
def gcRule (lcost : List (Option (Rat × Rat))) (xc : Nat) (cost gen w : Rat) : Prop :=
  match lcost[xc]? with
  | none => True
  | some none => False
  | some (some (m1, m2)) => cost / w ≥ gen * m1 + m2

/-- the constraints on the cost variable of one generator in one period: its domain (NW:361-362) and the rules of all
pieces, `range(self.Gen.get_NoPieces())`, NW:264-266 -/
def CostOk (lcost : List (Option (Rat × Rat))) (noPieces : Nat) (cost gen w : Rat) : Prop :=
  0 ≤ cost ∧ ∀ xc < noPieces, gcRule lcost xc cost gen w

/-- `ENetworkClass.OF_rule`, NW:771-784, for one scenario: `gcost g t`, `fea f t`, `pump k t` are the values of the
variables, `w` the weights of the periods, `value` the values of pumping -/
def networkObjective (noGen noFea noPump noTime : Nat) (w : Nat → Rat) (value : Nat → Rat) (base : Rat)
    (gcost fea pump : Nat → Nat → Rat) : Rat :=
  ((List.range noTime).map (fun xt =>
      (((List.range noGen).map (fun xg => gcost xg xt)).sum
        + ((List.range noFea).map (fun xf => fea xf xt)).sum * 1000000) * w xt)).sum
    - ((List.range noPump).map (fun xdl =>
        value xdl * base * ((List.range noTime).map (fun xt => pump (xdl + 1) xt * w xt)).sum)).sum

end Pyensys
