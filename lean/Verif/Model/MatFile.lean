import Verif.Py
import Mathlib.Algebra.Order.Field.Rat
import Mathlib.Algebra.Field.Basic
import Mathlib.Algebra.GroupWithZero.Basic

/-!
# Model of the reader of MATPOWER case files (`*.m`)

Source: pyensys/readers/JSONReader.py:15-149 (JR below).

Simplifications: floats are rationals; a file is the list of its lines, a line the list of its
whitespace-separated tokens (`contents[xline].split()`), a token a list of characters; digits are the
ASCII digits (Python's `isdigit` also accepts other scripts); `int` of a string with underscores, which
Python accepts, raises ValueError here; the final `savemat` (JR:108-112) is left out.
-/

namespace Pyensys

/-- `int` of a string of digits, left to right -/
def natOfDigits (cs : List Char) : Nat := cs.foldl (fun acc c => 10 * acc + (c.toNat - 48)) 0

/-- the characters `0`..`9` -/
def isDig (c : Char) : Bool := decide ('0' ≤ c ∧ c ≤ '9')

/-- Python's `int(string)`, JR:133: optional sign and at least one digit, ValueError otherwise. -/
def pyInt (cs : List Char) : Except PyErr Int :=
  match cs with
  | [] => .error .value
  | c :: r =>
    if c = '-' then (if r ≠ [] ∧ r.all isDig then .ok (-(natOfDigits r : Int)) else .error .value)
    else if c = '+' then (if r ≠ [] ∧ r.all isDig then .ok (natOfDigits r : Int) else .error .value)
    else if (c :: r).all isDig then .ok (natOfDigits (c :: r) : Int) else .error .value

/-- Python's `float(string)`, JR:147, on a string of digits and points: ValueError unless there is at
least one digit and at most one point. -/
def pyFloat (cs : List Char) : Except PyErr Rat :=
  let ip := cs.takeWhile (· ≠ '.')
  match cs.dropWhile (· ≠ '.') with
  | [] => if ip = [] then .error .value else .ok (natOfDigits ip : Rat)
  | _ :: fp =>
    if '.' ∈ fp ∨ ip ++ fp = [] then .error .value
    else .ok ((natOfDigits ip : Rat) + (natOfDigits fp : Rat) / 10 ^ fp.length)

/-- The loop JR:126-138 from some character on: the collected characters and the multiplier. -/
def digitLoop : List Char → List Char → Except PyErr (List Char × Rat)
  | [], num => .ok (num, 1)
  | c :: r, num =>
    if isDig c then digitLoop r (num ++ [c])
    else if c = '.' then digitLoop r (num ++ [c])
    else if c = 'e' then
      match pyInt (r.drop 1) with
      | .error e => .error e
      | .ok k =>
        match r with
        | [] => .error .index
        | s :: _ => if s = '+' then .ok (num, (10 : Rat) ^ k) else .ok (num, 1 / (10 : Rat) ^ k)
    else digitLoop r num

/-- `_get_digit_string`, JR:120-149: `none` stands for `(False, ' ')`. -/
def digitString (s : List Char) : Except PyErr (Option Rat) :=
  match digitLoop s [] with
  | .error e => .error e
  | .ok (num, mult) =>
    if num = [] then .ok none
    else
      match pyFloat num with
      | .error e => .error e
      | .ok x => .ok (some ((if s.head? = some '-' then mult * (-1) else mult) * x))

/-- a token of a line -/
abbrev Tok := List Char

/-- a value of the dictionary `Vars['mpc']`: a number or a matrix -/
inductive MatVal
  | num (x : Rat)
  | mat (rows : List (List Rat))
  deriving DecidableEq, Repr

/-- `Elements` and `Components`, JR:20-21 -/
def matElements : List (String × Nat) :=
  [("version", 1), ("baseMVA", 1), ("bus", 13), ("gen", 21), ("branch", 13), ("gencost", 6)]

/-- `Text`, JR:32-36: the first token up to the first '=' . -/
def headText (t : Tok) : Tok := t.takeWhile (· ≠ '=')

/-- The loop JR:39-43: the first element whose name, prefixed by "mpc.", is the text. -/
def findElement (text : Tok) : Option (String × Nat) :=
  matElements.find? (fun e => text = ("mpc." ++ e.1).toList)

/-- The loop JR:58-63: the first number among the tokens; RuntimeError stands for the plain
`Exception` of JR:70. -/
def firstNumber : List Tok → Except PyErr Rat
  | [] => .error .runtime
  | t :: ts =>
    match digitString t with
    | .error e => .error e
    | .ok (some x) => .ok x
    | .ok none => firstNumber ts

/-- The loop JR:77-79: tokens after the first number; IndexError if there is none. -/
def skipToNumber : List Tok → Except PyErr (List Tok)
  | [] => .error .index
  | t :: ts =>
    match digitString t with
    | .error e => .error e
    | .ok (some _) => .ok ts
    | .ok none => skipToNumber ts

/-- The loop JR:88-100: `n` numbers from the tokens. -/
def readValues : Nat → List Tok → Except PyErr (List Rat)
  | 0, _ => .ok []
  | _ + 1, [] => .error .index
  | n + 1, t :: ts =>
    match digitString t with
    | .error e => .error e
    | .ok none => .error .runtime
    | .ok (some x) =>
      match readValues n ts with
      | .error e => .error e
      | .ok l => .ok (x :: l)

/-- The loop JR:86-106 on the following lines (`xstring` = 0): rows are read while a line has at least
`comps` tokens.  Returns the rows and the lines after the one that ended the loop (JR:110 steps over
it); IndexError when the file ends first. -/
def readRows (comps : Nat) : List (List Tok) → Except PyErr (List (List Rat) × List (List Tok))
  | [] => .error .index
  | line :: rest =>
    if comps ≤ line.length then
      match readValues comps line with
      | .error e => .error e
      | .ok row =>
        match readRows comps rest with
        | .error e => .error e
        | .ok (rows, after) => .ok (row :: rows, after)
    else .ok ([], rest)

/-- JR:72-108: a matrix whose first line is `line` (the one with its name), `rest` being the lines
that follow. -/
def readMatrix (comps : Nat) (line : List Tok) (rest : List (List Tok)) :
    Except PyErr (List (List Rat) × List (List Tok)) :=
  if comps < line.length then
    match skipToNumber line with
    | .error e => .error e
    | .ok ts =>
      match readValues comps ts with
      | .error e => .error e
      | .ok row =>
        match readRows comps rest with
        | .error e => .error e
        | .ok (rows, after) => .ok (row :: rows, after)
  else readRows comps rest

/-- assignment to `Vars['mpc'][name]` -/
def matSet (d : List (String × MatVal)) (name : String) (v : MatVal) : List (String × MatVal) :=
  if d.any (fun e => e.1 = name) then d.map (fun e => if e.1 = name then (name, v) else e) else d ++ [(name, v)]

/-- The main loop JR:27-110 with at most `fuel` steps: each step uses up at least one line, so that
`fuel = number of lines` suffices (JR:27 has no other bound). -/
def matLoop : Nat → List (List Tok) → List (String × MatVal) → Except PyErr (List (String × MatVal))
  | _, [], d => .ok d
  | 0, _ :: _, _ => .error .recursion
  | fuel + 1, line :: rest, d =>
    match line with
    | [] => matLoop fuel rest d
    | t0 :: ts =>
      match findElement (headText t0) with
      | none => matLoop fuel rest d
      | some (name, comps) =>
        if comps = 1 then
          match firstNumber (if '=' ∈ t0 then t0 :: ts else ts) with
          | .error e => .error e
          | .ok x => matLoop fuel rest (matSet d name (.num x))
        else
          match readMatrix comps line rest with
          | .error e => .error e
          | .ok (rows, after) => matLoop fuel after (matSet d name (.mat rows))

/-- `_build_mat_file`, JR:15-108: the dictionary that is saved. -/
def buildMat (lines : List (List Tok)) : Except PyErr (List (String × MatVal)) :=
  matLoop lines.length lines []

end Pyensys
