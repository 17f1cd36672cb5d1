import Verif.Model.Energy
import Verif.Model.MatFile
import Mathlib.Algebra.Order.Ring.Rat

/-!
# Model of the reader of the time series

Source: `ReadTimeS`, pyensys/engines/main.py (MN below) MN:957-1037, which the commands run-en, run-ac and the examples of pyensys/cases.py use.

Simplifications: floats are rationals; the file is a dictionary from titles to profiles, whose `Period`, `Links`, `Bus` and `Values` are present; `Links` and `Bus` are natural numbers; `Values` is a list of numbers or a list of lists of numbers (an empty list counts as a list of numbers). `LLRESType` and `LLRESPeriod`, arrays of the right size whose rows are written from the first to the last, are lists that grow. Profiles of the demand are handed over as they are.
-/

namespace Pyensys

/-- `Values` of a profile -/
inductive TsValues where
  | flat (l : List Rat)
  | rows (r : List (List Rat))
  deriving DecidableEq, Repr

/-- a profile of the file -/
structure TsProfile where
  period : Nat
  links : List Nat
  bus : List Nat
  values : TsValues
  deriving DecidableEq, Repr

/-- the file: `metadata['title']` and the profiles -/
structure TsFile where
  titles : List Tok
  profiles : List (Tok × TsProfile)
  deriving DecidableEq, Repr

/-- `Profile_Data[xr]` -/
def tsGet (f : TsFile) (t : Tok) : Except PyErr TsProfile :=
  match f.profiles.lookup t with
  | some p => .ok p
  | none => .error .key

/-- `max(Links)`, MN:998: a ValueError without links -/
def tsMax : List Nat → Except PyErr Nat
  | [] => .error .value
  | a :: l => .ok (l.foldl max a)

/-- a row of `sRes`, MN:992: periods, links, plants -/
structure TsSize where
  period : Nat
  links : Nat
  bus : Nat
  deriving DecidableEq, Repr

/-- the state of the first loop, MN:989-1002 -/
structure TsFirst where
  noRES : Int
  noLink : Nat
  sizes : List TsSize
  types : List (Int × Int)
  deriving DecidableEq, Repr

/-- MN:994-1002 -/
def tsFirstStep (f : TsFile) (s : TsFirst) (t : Tok) : Except PyErr TsFirst := do
  let p ← tsGet f t
  let l ← tsMax p.links
  .ok ⟨s.noRES + p.period, s.noLink + l, s.sizes ++ [⟨p.period, l, p.bus.length⟩], s.types ++ [(s.noRES + 1, s.noRES + p.period)]⟩

/-- the rows of `LLRESPeriod` and the last position, MN:1005-1014 -/
def tsPeriodStep (s : List (Int × Int) × Int) (l : Nat) : List (Int × Int) × Int := (s.1 ++ [(s.2 + 1, s.2 + l)], s.2 + l)

/-- MN:1010-1014 -/
def tsPeriods (sizes : List TsSize) : List (Int × Int) × Int :=
  (sizes.flatMap (fun z => List.replicate z.period z.links)).foldl tsPeriodStep ([], -1)

/-- the number of hours, MN:1017-1020 -/
def tsHours (z : TsSize) (v : TsValues) : Except PyErr Nat :=
  if z.period * z.links = 1 then
    match v with
    | .flat l => .ok l.length
    | .rows r => .ok r.length
  else
    match v with
    | .flat [] => .error .index
    | .flat (_ :: _) => .error .type
    | .rows [] => .error .index
    | .rows (r :: _) => .ok r.length

/-- a row of numbers for `hours` columns: numpy repeats a single number -/
def tsRow (hours : Nat) (l : List Rat) : Except PyErr (List Rat) :=
  if l.length = hours then .ok l
  else match l with
    | [q] => .ok (List.replicate hours q)
    | _ => .error .value

/-- the right side of the assignment MN:1027 for `n` rows and `hours` columns: numpy repeats a single row, and refuses other shapes -/
def tsBlock (n hours : Nat) (v : TsValues) : Except PyErr (List (List Rat)) :=
  match v with
  | .flat l => do
    let r ← tsRow hours l
    .ok (List.replicate n r)
  | .rows rs =>
    if rs.any (fun r => decide (r.length ≠ (rs.headD []).length)) then .error .value
    else if rs.length = n then rs.mapM (tsRow hours)
    else match rs with
      | [r] => do
        let r ← tsRow hours r
        .ok (List.replicate n r)
      | _ => .error .value

/-- the state of the last loop, MN:1021-1033: the profiles, the plants' buses and links, and `acu[1]`, `acu[2]` -/
structure TsLast where
  profs : List (List Rat)
  bus : List Nat
  link : List Nat
  pos : Nat
  off : Nat
  deriving DecidableEq, Repr

/-- one plant, MN:1029-1032 -/
def tsPlant (p : TsProfile) (s : TsLast) (xL : Nat) : Except PyErr TsLast := do
  let b ← npGet p.bus xL
  let bs ← npSet s.bus s.pos b
  let l ← npGet p.links xL
  let ls ← npSet s.link s.pos (l + s.off)
  .ok ⟨s.profs, bs, ls, s.pos + 1, s.off⟩

/-- one title, MN:1024-1033 -/
def tsLastStep (f : TsFile) (hours : Nat) (s : TsLast) (t : Tok × TsSize) : Except PyErr TsLast := do
  let p ← tsGet f t.1
  let b ← tsBlock (t.2.period * t.2.links) hours p.values
  let s ← (List.range t.2.bus).foldlM (tsPlant p) ⟨s.profs ++ b, s.bus, s.link, s.pos, s.off⟩
  .ok ⟨s.profs, s.bus, s.link, s.pos, s.off + t.2.links⟩

/-- what is returned, MN:1035-1037 -/
structure TsResult where
  noRES : Int
  noRESP : Nat
  types : List (Int × Int)
  periods : List (Int × Int)
  profs : List (List Rat)
  bus : List Nat
  link : List Nat
  noLink : Nat
  hours : Nat
  deriving DecidableEq, Repr

/-- the titles of renewable sources, MN:964-979: the first 'Demand' is removed -/
def tsTitles (f : TsFile) : List Tok := f.titles.erase "Demand".toList

/-- the demand, MN:968-979: its `Values`, `Bus`, `Links` and number of periods; `none`: the default -/
def tsDemand (f : TsFile) : Except PyErr (Option TsProfile) :=
  if "Demand".toList ∈ f.titles then do
    let p ← tsGet f "Demand".toList
    .ok (some p)
  else .ok none

/-- `np.zeros(NoRES)`, MN:1006-1007 -/
def tsZeros (n : Int) : Except PyErr (List Nat) := if n < 0 then .error .value else .ok (List.replicate n.toNat 0)

/-- the first title, MN:1018-1020 -/
def tsFirstHours (f : TsFile) (titles : List Tok) (sizes : List TsSize) : Except PyErr Nat :=
  match titles, sizes with
  | t :: _, z :: _ => do
    let p ← tsGet f t
    tsHours z p.values
  | _, _ => .error .index

/-- the renewable sources, MN:988-1037 -/
def tsRenewables (f : TsFile) (titles : List Tok) : Except PyErr TsResult := do
  let a ← titles.foldlM (tsFirstStep f) ⟨-1, 0, [], []⟩
  let z ← tsZeros a.noRES
  let h ← tsFirstHours f titles a.sizes
  let r ← (titles.zip a.sizes).foldlM (tsLastStep f h) ⟨[], z, z, 0, 0⟩
  .ok ⟨a.noRES, titles.length, a.types, (tsPeriods a.sizes).1, r.profs, r.bus, r.link, a.noLink, h⟩

/-- `ReadTimeS`: without renewable sources nothing is returned (`none`), MN:982-986 -/
def tsRead (f : TsFile) : Except PyErr (Option (Option TsProfile × TsResult)) := do
  let d ← tsDemand f
  if tsTitles f = [] then .ok none
  else do
    let r ← tsRenewables f (tsTitles f)
    .ok (some (d, r))

end Pyensys
