import Verif.Model.MatJson

/-!
# Model of the reader of PSS/E raw files

Source: `PSSErawInterface`, pyensys/engines/pyeneI.py:300-546 (PI below).

Simplifications: the file is the list of its lines, a line the list of its characters; floats are exact rationals, `math.sqrt` is a parameter; `float` and `int` as in Model/MatJson, with blanks around
the text dropped; `np.empty(1)` is a list with one arbitrary entry (parameter `junk`); the last lines of the output have nine decimals, which is not modelled.  A line that is too short or missing raises IndexError.
-/

namespace Pyensys

/-- characters that `int` and `float` drop at both ends -/
def isBlank (c : Char) : Bool := decide (c = ' ' ∨ c = '\t' ∨ c = '\n' ∨ c = '\r')

/-- `text.strip()`, as `int` and `float` do -/
def psStrip (t : Tok) : Tok := ((t.dropWhile isBlank).reverse.dropWhile isBlank).reverse

/-- `line.split(',')` -/
def psSplit : Tok → List Tok
  | [] => [[]]
  | c :: r =>
    if c = ',' then [] :: psSplit r
    else match psSplit r with
      | [] => [[c]]
      | w :: ws => (c :: w) :: ws

/-- `float(aux2[i])` -/
def psFloat (line : Tok) (i : Nat) : Except PyErr Rat :=
  match (psSplit line)[i]? with
  | none => .error .index
  | some t => pyFloatStr (psStrip t)

/-- `int(aux2[i])` -/
def psInt (line : Tok) (i : Nat) : Except PyErr Int :=
  match (psSplit line)[i]? with
  | none => .error .index
  | some t => pyInt (psStrip t)

/-- `filecontent[aux1][0:3] != '0 /'` -/
def psEnds (line : Tok) : Bool := line.take 3 == "0 /".toList

/-- a branch of the result: buses, resistance, reactance -/
structure PsRow where
  f : Int
  t : Int
  r : Rat
  x : Rat
  deriving DecidableEq, Repr

/-- `BaseUnitPower`, PI:322-333; the other fields of the line (frequency, units) are not used and taken to be readable -/
def psBase (lines : List Tok) : Except PyErr Rat :=
  match lines with
  | [] => .error .index
  | l :: _ => psFloat l 1

/-- `detectpsseversion`, PI:311-320: `none` if the version is not supported (a warning is logged) -/
def psVersion (lines : List Tok) : Except PyErr (Option Int) :=
  match lines with
  | [] => .error .index
  | l :: _ => (psInt l 2).map (fun v => if v = 31 ∨ v = 33 ∨ v = 34 then some v else none)

/-- the loop PI:342-347 over the buses after the first one -/
def psNodeLoop : List Tok → List (Int × Rat) → Except PyErr (List (Int × Rat))
  | [], _ => .error .index
  | l :: ls, acc =>
    if psEnds l then .ok acc
    else do
      let n ← psInt l 0
      let v ← psFloat l 2
      psNodeLoop ls (acc ++ [(n, v)])

/-- `parsenodedata`, PI:335-348: line 4 of the file is the first bus, whatever it says; with no other bus the arrays have no dimension, and `len` raises TypeError -/
def psNodes (lines : List Tok) : Except PyErr (List (Int × Rat)) :=
  match lines.drop 3 with
  | [] => .error .index
  | l :: ls => do
    let n ← psInt l 0
    let v ← psFloat l 2
    let r ← psNodeLoop ls [(n, v)]
    if r.length = 1 then .error .type else .ok r

/-- conversion to the base of the system, PI:381-388, 431-449: `cz` is the code of the units -/
def psConvert (base : Rat) (sqrt : Rat → Rat) (cz : Int) (r x s : Rat) : Except PyErr (Rat × Rat) :=
  if cz = 2 then
    if s ≠ base then (if s = 0 then .error .zeroDivision else .ok (r * (base / s), x * (base / s))) else .ok (r, x)
  else if cz = 3 then
    if base = 0 then .error .zeroDivision
    else
      let r' := r / (base * 1000000)
      if x ^ 2 - r' ^ 2 < 0 then .error .value else .ok (r', sqrt (x ^ 2 - r' ^ 2))
  else .ok (r, x)

/-- PI:451-458: reactances above a hundred times the least one are cut, one after the other -/
def psCap (x m : Rat) : Except PyErr Rat := if m = 0 then .error .zeroDivision else if 100 < x / m then .ok (100 * m) else .ok x

/-- the state of `parsetrafodata`: counters and tables, PI:352-363 -/
structure PsState where
  nTwo : Nat
  nThree : Nat
  two : List PsRow
  three : List PsRow
  deriving DecidableEq, Repr

/-- PI:389-400: the first transformer replaces the entry that was there -/
def psAddTwo (s : PsState) (row : PsRow) : PsState := ⟨s.nTwo + 1, s.nThree, if s.nTwo = 0 then s.two.set 0 row else s.two ++ [row], s.three⟩

/-- PI:466-507 -/
def psAddThree (s : PsState) (a b c : PsRow) : PsState := ⟨s.nTwo, s.nThree + 1, s.two, (if s.nThree = 0 then s.three.set 0 a else s.three ++ [a]) ++ [b, c]⟩

/-- the numbers of a two-winding transformer, PI:367-400 -/
def psTwo (base : Rat) (sqrt : Rat → Rat) (l0 l1 l2 l3 : Tok) : Except PyErr PsRow := do
  let b1 ← psInt l0 0
  let b2 ← psInt l0 1
  let _ ← psInt l0 4
  let cz ← psInt l0 5
  let _ ← psInt l0 6
  let r ← psFloat l1 0
  let x ← psFloat l1 1
  let s ← psFloat l1 2
  let _ ← psFloat l2 1
  let _ ← psFloat l3 1
  let z ← psConvert base sqrt cz r x s
  .ok ⟨b1, b2, z.1, z.2⟩

/-- the numbers of a three-winding transformer, PI:401-465: three branches to the bus `1000000 + k` -/
def psThree (base : Rat) (sqrt : Rat → Rat) (k : Nat) (l0 l1 l2 l3 l4 : Tok) : Except PyErr (PsRow × PsRow × PsRow) := do
  let b1 ← psInt l0 0
  let b2 ← psInt l0 1
  let b3 ← psInt l0 2
  let _ ← psInt l0 4
  let cz ← psInt l0 5
  let _ ← psInt l0 6
  let r12 ← psFloat l1 0
  let x12 ← psFloat l1 1
  let s12 ← psFloat l1 2
  let r23 ← psFloat l1 3
  let x23 ← psFloat l1 4
  let s23 ← psFloat l1 5
  let r31 ← psFloat l1 6
  let x31 ← psFloat l1 7
  let s31 ← psFloat l1 8
  let _ ← psFloat l2 1
  let _ ← psFloat l3 1
  let _ ← psFloat l4 1
  let z12 ← psConvert base sqrt cz r12 x12 s12
  let z23 ← psConvert base sqrt cz r23 x23 s23
  let z31 ← psConvert base sqrt cz r31 x31 s31
  let m := min z12.2 (min z23.2 z31.2)
  let y12 ← psCap z12.2 m
  let y23 ← psCap z23.2 m
  let y31 ← psCap z31.2 m
  let star : Int := 1000000 + ((k : Int) + 1)
  .ok (⟨b1, star, 1 / 2 * (z12.1 + z31.1 - z23.1), 1 / 2 * (y12 + y31 - y23)⟩, ⟨b2, star, 1 / 2 * (z12.1 + z23.1 - z31.1), 1 / 2 * (y12 + y23 - y31)⟩,
    ⟨b3, star, 1 / 2 * (z31.1 + z23.1 - z12.1), 1 / 2 * (y31 + y23 - y12)⟩)

/-- the loop PI:364-507 -/
def psTrafoLoop (base : Rat) (sqrt : Rat → Rat) : List Tok → PsState → Except PyErr PsState
  | [], _ => .error .index
  | [l0], s => if psEnds l0 then .ok s else .error .index
  | [l0, _], s => if psEnds l0 then .ok s else .error .index
  | [l0, _, _], s => if psEnds l0 then .ok s else .error .index
  | l0 :: l1 :: l2 :: l3 :: ls, s =>
    if psEnds l0 then .ok s
    else do
      let k ← psInt l0 2
      if k = 0 then do
        let row ← psTwo base sqrt l0 l1 l2 l3
        psTrafoLoop base sqrt ls (psAddTwo s row)
      else
        match ls with
        | [] => .error .index
        | l4 :: ls => do
          let rows ← psThree base sqrt s.nThree l0 l1 l2 l3 l4
          psTrafoLoop base sqrt ls (psAddThree s rows.1 rows.2.1 rows.2.2)

/-- `parsetrafodata`, PI:351-510: from line 14554 of the file on -/
def psTrafos (junk : PsRow) (sqrt : Rat → Rat) (base : Rat) (lines : List Tok) : Except PyErr PsState := psTrafoLoop base sqrt (lines.drop 14553) ⟨0, 0, [junk], [junk]⟩

/-- `readpsserawfile`, PI:517-537: the rows of the file that is written, two-winding transformers first, and the buses -/
def readPsse (junk : PsRow) (sqrt : Rat → Rat) (lines : List Tok) : Except PyErr (List (Int × Rat) × List PsRow) := do
  let _ ← psVersion lines
  let base ← psBase lines
  let nodes ← psNodes lines
  let s ← psTrafos junk sqrt base lines
  .ok (nodes, s.two ++ s.three)

end Pyensys
