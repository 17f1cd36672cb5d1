import Verif.Model.EngineData

/-!
# Model of the piecewise linear generation cost of the compiled engine

Source: pyensys/engines/energy_models2.cpp (EC below): `breakpoints_piecewise_linearisation`, `piecewise_linearisation` (EC:591-665) and the rows and coefficients made of them (EC:874-900, 1283-1325).

Simplifications: doubles are rationals.
-/

namespace Pyensys

/-- break points of a cost that is given as points, EC:596-615 -/
def cPairs (base : Rat) : List CVal → Except CErr (List (Rat × CVal))
  | [] => .ok []
  | [x] => do
    let _ ← x.getDbl
    .ok []
  | x :: y :: l => do
    let q ← x.getDbl
    let r ← cPairs base l
    .ok ((q / base, y) :: r)

/-- the polynomial, the coefficient of the highest power first, EC:625-630 -/
def cPolyAt (x : Rat) : List CVal → Except CErr Rat
  | [] => .ok 0
  | v :: l => do
    let q ← v.getDbl
    let r ← cPolyAt x l
    .ok (q * x ^ l.length + r)

/-- break points of a polynomial, from one on, EC:620-633 -/
def cSteps (base step : Rat) (coeffs : List CVal) : Nat → Rat → Except CErr (List (Rat × CVal))
  | 0, _ => .ok []
  | n + 1, x => do
    let y ← cPolyAt (x * base) coeffs
    let r ← cSteps base step coeffs n (x + step)
    .ok ((x, .dbl y) :: r)

/-- `breakpoints_piecewise_linearisation`, EC:591-635; the limits are in per unit -/
def cBreakpoints (info : CInfo) (base max min : Rat) : Except CErr (List (Rat × CVal)) := do
  let model ← (cGetChar info.chars "model".toList).value.getInt
  if model = 1 then cPairs base (cGetChar info.chars "coefficients".toList).values
  else if model = 2 then do
    let pieces ← (cGetChar info.chars "pieces".toList).value.getInt
    cSteps base (max / pieces) (cGetChar info.chars "coefficients".toList).values (pieces + 1).toNat min
  else .ok []

/-- slope of a piece, EC:650-653 -/
def cSlope (a b : Rat × CVal) : Except CErr Rat :=
  if b.1 - a.1 ≠ 0 then do
    let y ← b.2.getDbl
    let z ← a.2.getDbl
    .ok ((y - z) / (b.1 - a.1))
  else .ok 0

/-- slopes and intercepts, EC:645-655 -/
def cLines : List (Rat × CVal) → Except CErr (List (Rat × Rat))
  | a :: b :: l => do
    let s ← cSlope a b
    let z ← a.2.getDbl
    let r ← cLines (b :: l)
    .ok ((s, z - a.1 * s) :: r)
  | _ => .ok []

/-- `piecewise_linearisation`, EC:637-665 -/
def cLinearise (info : CInfo) (base max min : Rat) : Except CErr (List (Rat × Rat)) := do
  let pts ← cBreakpoints info base max min
  if pts = [] then .error (.code (-7)) else cLines pts

/-- the new characteristics, EC:656-664 -/
def cLineChars (lines : List (Rat × Rat)) : List CChar :=
  [⟨"slopes".toList, cNA, lines.map (fun l => .dbl l.1)⟩, ⟨"y_intercepts".toList, cNA, lines.map (fun l => .dbl l.2)⟩]

/-- an entry of a vector of numbers; beyond the end the behaviour is undefined -/
def cVecAt (vals : List CVal) (n : Nat) : Except CErr Rat :=
  match vals[n]? with
  | some v => v.getDbl
  | none => .error .undefined

/-- the negative intercepts, upper bounds of the rows, EC:888-897 -/
def cRowBounds (info : CInfo) : Except CErr (List Rat) := do
  let pieces ← (cGetChar info.chars "pieces".toList).value.getInt
  (List.range pieces.toNat).mapM (fun n => do
    let z ← cVecAt (cGetChar info.chars "y_intercepts".toList).values n
    .ok (-z))

/-- the slopes, coefficients of the generation in the rows, EC:1294-1316 -/
def cRowSlopes (info : CInfo) : Except CErr (List Rat) := do
  let pieces ← (cGetChar info.chars "pieces".toList).value.getInt
  (List.range pieces.toNat).mapM (fun n => cVecAt (cGetChar info.chars "slopes".toList).values n)

end Pyensys
