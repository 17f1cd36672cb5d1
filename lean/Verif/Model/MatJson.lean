import Verif.Model.MatFile

/-!
# Model of the converters of MATPOWER files to JSON networks

Sources: pyensys/tests/matpower/conversion_model_mat2json.py:18-283 (MJ below; the version that pyensys/cases.py:17 and
Optimisers/input_output_function.py:27 import), pyensys/Optimisers/conversion_model_mat2json.py:17-292 (a copy that reads whole numbers with `int`) and
pyensys/engines/pyeneI.py:550-755 (PI below; an older version), and `get_mpc`, pyensys/cases.py:457-473 (CA below).

Simplifications: as in Model/MatFile (a file is the list of its lines, a line the list of its tokens, digits are ASCII, floats are exact rationals);
`float('inf')`, `float('nan')` and underscores, which Python accepts, raise ValueError here; the step through the JSON file on the disk (MJ:278-280, CA:467-470)
is left out (its keys `demandP`, `demandQ` become strings); metadata and version are left out.
-/

namespace Pyensys

/-- the part of a decimal numeral before an exponent: `pyFloat` on digits and points, ValueError on anything else -/
def pyMantissa (cs : List Char) : Except PyErr Rat :=
  if cs.all (fun c => isDig c || decide (c = '.')) then pyFloat cs else .error .value

/-- Python's `float(string)` without a sign: mantissa and, after `e` or `E`, an integer exponent -/
def pyFloatBody (cs : List Char) : Except PyErr Rat :=
  match cs.dropWhile (fun c => decide (c ≠ 'e' ∧ c ≠ 'E')) with
  | [] => pyMantissa cs
  | _ :: k =>
    match pyMantissa (cs.takeWhile (fun c => decide (c ≠ 'e' ∧ c ≠ 'E'))) with
    | .error e => .error e
    | .ok x =>
      match pyInt k with
      | .error e => .error e
      | .ok n => .ok (x * (10 : Rat) ^ n)

/-- Python's `float(string)`: optional sign, MJ:141, 177, 180 -/
def pyFloatStr (cs : List Char) : Except PyErr Rat :=
  match cs with
  | [] => .error .value
  | c :: r =>
    if c = '-' then (pyFloatBody r).map (fun x => -x)
    else if c = '+' then pyFloatBody r
    else pyFloatBody (c :: r)

/-- `int(x)` of a float: truncation towards zero -/
def pyTrunc (x : Rat) : Int := if 0 ≤ x then x.floor else -((-x).floor)

/-- the three copies of the converter -/
inductive MjVersion
  | attest
  | optimisers
  | engine
  deriving DecidableEq, Repr

/-- a whole-number column: `int(float(val))`, MJ:181, 197, 214; `int(val)` in the two other versions (Optimisers copy lines 180, 196, 214; PI:688, 702, 719) -/
def mjInt (v : MjVersion) (t : Tok) : Except PyErr Int :=
  match v with
  | .attest => (pyFloatStr t).map pyTrunc
  | _ => pyInt t

/-- `aux2`, MJ:173-176: the token without semicolons -/
def noSemi (t : Tok) : Tok := t.filter (fun c => decide (c ≠ ';'))

/-- how a column is read -/
inductive MjKind
  | int
  | float
  | last
  deriving DecidableEq, Repr

/-- the keys of 'bus', MJ:51-65, and how MJ:167-181 reads them -/
def busKinds : List MjKind := [.int, .int, .float, .float, .float, .float, .int, .float, .float, .float, .int, .float, .last]
/-- the keys of 'branch', MJ:66-80, and how MJ:203-214 reads them -/
def branchKinds : List MjKind := [.int, .int, .float, .float, .float, .float, .float, .float, .float, .float, .int, .float, .last]
/-- the keys of 'gen', MJ:81-103, and how MJ:187-197 reads them -/
def genKinds : List MjKind :=
  [.int, .float, .float, .float, .float, .float, .float, .int, .float, .float, .float, .float, .float, .float, .float, .float, .float, .float, .float, .float, .last]

/-- one value of a row -/
def mjCell (v : MjVersion) (k : MjKind) (t : Tok) : Except PyErr Rat :=
  match k with
  | .int => (mjInt v t).map (fun n => (n : Rat))
  | .float => pyFloatStr t
  | .last => pyFloatStr (noSemi t)

/-- `zip(aux1, keys)`: the values of a row, as many as there are tokens and columns -/
def mjRow (v : MjVersion) (kinds : List MjKind) (line : List Tok) : Except PyErr (List Rat) :=
  (kinds.zip line).mapM (fun p => mjCell v p.1 p.2)

/-- the appends of a row to the columns it reaches -/
def mjAppend : List (List Rat) → List Rat → List (List Rat)
  | c :: cs, x :: xs => (c ++ [x]) :: mjAppend cs xs
  | cs, [] => cs
  | [], _ => []

/-- a coefficient of a cost: the last one is a whole number (MJ:235), or still a text in PI:741 -/
inductive MjCost
  | num (x : Rat)
  | text (t : Tok)
  deriving DecidableEq, Repr

/-- coefficient `x` of `n`, MJ:227-235, PI:733-741: the tokens from position 4 on; IndexError beyond the line -/
def mjCoef (v : MjVersion) (line : List Tok) (n : Int) (x : Nat) : Except PyErr MjCost :=
  match line[4 + x]? with
  | none => .error .index
  | some t =>
    if (x : Int) < n - 1 then (pyFloatStr t).map MjCost.num
    else match v with
      | .engine => .ok (.text (noSemi t))
      | _ => (pyInt (noSemi t)).map (fun k => MjCost.num (k : Rat))

/-- a row of 'gencost' -/
structure MjCostRow where
  model : Int
  startup : Rat
  shutdown : Rat
  ncost : Int
  cost : List MjCost
  deriving DecidableEq, Repr

/-- token of a 'gencost' row; IndexError beyond the line -/
def mjTok (line : List Tok) (i : Nat) : Except PyErr Tok :=
  match line[i]? with
  | none => .error .index
  | some t => .ok t

/-- a row of 'gencost', MJ:220-241 -/
def mjCostRow (v : MjVersion) (line : List Tok) : Except PyErr MjCostRow := do
  let t0 ← mjTok line 0
  let model ← pyInt t0
  let t1 ← mjTok line 1
  let up ← pyFloatStr t1
  let t2 ← mjTok line 2
  let down ← pyFloatStr t2
  let t3 ← mjTok line 3
  let n ← pyInt t3
  let cost ← (List.range n.toNat).mapM (mjCoef v line n)
  return ⟨model, up, down, n, cost⟩

/-- what has been read so far: the dictionary (columns) and the flags, MJ:38-135 -/
structure MjState where
  base : Option Rat := none
  slack : Option Int := none
  bus : List (List Rat) := List.replicate 13 []
  branch : List (List Rat) := List.replicate 13 []
  gen : List (List Rat) := List.replicate 21 []
  gencost : List MjCostRow := []
  demandP : List Rat := []
  demandQ : List Rat := []
  inBus : Bool := false
  inGen : Bool := false
  inBranch : Bool := false
  inGencost : Bool := false
  inP : Bool := false
  inQ : Bool := false
  deriving DecidableEq, Repr

/-- `line.split()[0] == '];'` -/
def mjClose : Tok := "];".toList

/-- the slack bus, MJ:168-170: the number of the bus if its type is 3 -/
def mjSlack (row : List Rat) (s : Option Int) : Option Int :=
  match row with
  | n :: t :: _ => if t = 3 then some (pyTrunc n) else s
  | _ => s

/-- MJ:165-183 -/
def mjBus (v : MjVersion) (line : List Tok) (s : MjState) : Except PyErr MjState :=
  if s.inBus then
    if line.head? = some mjClose then .ok { s with inBus := false }
    else (mjRow v busKinds line).map (fun row => { s with bus := mjAppend s.bus row, slack := mjSlack row s.slack })
  else .ok s

/-- MJ:185-199 -/
def mjGen (v : MjVersion) (line : List Tok) (s : MjState) : Except PyErr MjState :=
  if s.inGen then
    if line.head? = some mjClose then .ok { s with inGen := false }
    else (mjRow v genKinds line).map (fun row => { s with gen := mjAppend s.gen row })
  else .ok s

/-- MJ:201-216 -/
def mjBranch (v : MjVersion) (line : List Tok) (s : MjState) : Except PyErr MjState :=
  if s.inBranch then
    if line.head? = some mjClose then .ok { s with inBranch := false }
    else (mjRow v branchKinds line).map (fun row => { s with branch := mjAppend s.branch row })
  else .ok s

/-- MJ:218-243 -/
def mjGencost (v : MjVersion) (line : List Tok) (s : MjState) : Except PyErr MjState :=
  if s.inGencost then
    if line.head? = some mjClose then .ok { s with inGencost := false }
    else (mjCostRow v line).map (fun row => { s with gencost := s.gencost ++ [row] })
  else .ok s

/-- MJ:249-257, with `NoTime = 1` -/
def mjP (line : List Tok) (s : MjState) : Except PyErr MjState :=
  if s.inP then
    if line.head? = some mjClose then .ok { s with inP := false }
    else match line with
      | [] => .error .index
      | t :: _ => (pyFloatStr t).map (fun x => { s with demandP := s.demandP ++ [x] })
  else .ok s

/-- MJ:261-269 -/
def mjQ (line : List Tok) (s : MjState) : Except PyErr MjState :=
  if s.inQ then
    if line.head? = some mjClose then .ok { s with inQ := false }
    else match line with
      | [] => .error .index
      | t :: _ => (pyFloatStr t).map (fun x => { s with demandQ := s.demandQ ++ [x] })
  else .ok s

/-- the part of the loop that reads rows, MJ:165-269: every matrix whose flag is set; blank lines are passed over -/
def mjBody (v : MjVersion) (line : List Tok) (s : MjState) : Except PyErr MjState :=
  if line = [] then .ok s
  else do
    let s ← mjBus v line s
    let s ← mjGen v line s
    let s ← mjBranch v line s
    let s ← mjGencost v line s
    let s ← mjP line s
    mjQ line s

/-- MJ:137-141: the third token without semicolons; IndexError if there is none -/
def mjBase (line : List Tok) (s : MjState) : Except PyErr MjState :=
  match line[2]? with
  | none => .error .index
  | some t => (pyFloatStr (noSemi t)).map (fun x => { s with base := some x })

/-- what the first token of a line announces, MJ:136-162 -/
inductive MjHead
  | base | bus | gen | branch | gencost | demandP | demandQ | none
  deriving DecidableEq, Repr

/-- the comparisons MJ:136-162; PI:643-664 does not know the demands -/
def mjHead (v : MjVersion) (line : List Tok) : MjHead :=
  match line with
  | [] => .none
  | t :: _ =>
    if t = "mpc.baseMVA".toList then .base
    else if t = "mpc.bus".toList then .bus
    else if t = "mpc.gen".toList then .gen
    else if t = "mpc.branch".toList then .branch
    else if t = "mpc.gencost".toList then .gencost
    else if t = "mpc.demandP".toList ∧ v ≠ .engine then .demandP
    else if t = "mpc.demandQ".toList ∧ v ≠ .engine then .demandQ
    else .none

/-- the loop MJ:135-271 -/
def mjLoop (v : MjVersion) : List (List Tok) → MjState → Except PyErr MjState
  | [], s => .ok s
  | line :: rest, s =>
    match mjHead v line with
    | .base => do
      let s ← mjBase line s
      let s ← mjBody v line s
      mjLoop v rest s
    | .bus => mjLoop v rest { s with inBus := true }
    | .gen => mjLoop v rest { s with inGen := true }
    | .branch => mjLoop v rest { s with inBranch := true }
    | .gencost =>
      -- MJ:151-153 has no `continue`: the next line is read as a row whatever it says; PI:660-663 has one
      if v = .engine then mjLoop v rest { s with inGencost := true }
      else match rest with
        | [] => mjBody v [] { s with inGencost := true }
        | next :: rest => do
          let s ← mjBody v next { s with inGencost := true }
          mjLoop v rest s
    | .demandP =>
      -- MJ:154-156 has no `continue` either
      match rest with
        | [] => mjBody v [] { s with inP := true }
        | next :: rest => do
          let s ← mjBody v next { s with inP := true }
          mjLoop v rest s
    | .demandQ => mjLoop v rest { s with inQ := true }
    | .none => do
      let s ← mjBody v line s
      mjLoop v rest s

/-- the dictionary that is written -/
structure MjNet where
  base : Option Rat
  noBus : Nat
  noBranch : Nat
  noGen : Nat
  slack : Option Int
  bus : List (List Rat)
  branch : List (List Rat)
  gen : List (List Rat)
  gencost : List MjCostRow
  demandP : List Rat
  demandQ : List Rat
  deriving DecidableEq, Repr

/-- the number of entries of the first column, MJ:273-275 -/
def mjCount (cols : List (List Rat)) : Nat := (cols.head?.getD []).length

/-- `matpower2json`, MJ:18-280 -/
def matpower2json (v : MjVersion) (lines : List (List Tok)) : Except PyErr MjNet :=
  (mjLoop v lines {}).map (fun s =>
    ⟨s.base, mjCount s.bus, mjCount s.branch, mjCount s.gen, s.slack, s.bus, s.branch, s.gen, s.gencost, s.demandP, s.demandQ⟩)

/-- the search CA:460-462, `x` steps from the end of the name; positions before the beginning start again from the end until Python's IndexError -/
def mpcSlash (name : List Char) : Except PyErr Nat :=
  match (List.range name.length).reverse.find? (fun x => decide (name[x]? = some '\\' ∨ name[x]? = some '/')) with
  | some x => .ok x
  | none => .error .index

/-- the paths that `get_mpc`, CA:457-470, passes on: the folder and the name without the last two characters -/
def mpcPath (testCase : List Char) : Except PyErr (List Char × List Char) :=
  let name := testCase.take (testCase.length - 2)
  (mpcSlash name).map (fun x => (name.take x, name.drop (x + 1)))

/-- the file that is read: `os.path.join(folder, name + '.m')`, MJ:35-36; an empty folder gives the bare name, and a folder that ends in a slash gets no second one -/
def mpcFile (p : List Char × List Char) : List Char :=
  if p.1 = [] then p.2 ++ ".m".toList
  else if p.1.getLast? = some '/' then p.1 ++ p.2 ++ ".m".toList
  else p.1 ++ '/' :: (p.2 ++ ".m".toList)

end Pyensys
