import Verif.Model.Coupled

/-!
# Model of services, uncertain renewables and curtailment of the network engine

Source: pyensys/engines/pyeneN.py (NW below): the units that provide services in `initialise` NW:699-770, the constraints of services NW:298-315 with their rules NW:384-390, 568-585, 601-620, the variables NW:359-360, 368-370; the curtailment of the balance without network NW:456-470; the offsets of the instances pyensys/engines/main.py:757-774.

Simplifications: floats are rationals; the variables of one period are functions of the position, `noh` instances share them (the period is the same in all rules). `np.zeros(None)` is a zero-dimensional array: storing in it or joining it raises. The available renewable power of an instance (C112) is given as a number.
-/

namespace Pyensys

/-- a setting of a class of units: a list (which is true in Python if it is not empty, whatever it contains) or a truth value -/
inductive SvFlag where
  | list (l : List Bool)
  | one (b : Bool)
  deriving DecidableEq, Repr

/-- `if self.conventional['Ancillary']` -/
def svTrue : SvFlag → Bool
  | .list l => !l.isEmpty
  | .one b => b

/-- the data used by `initialise`, NW:699-770 -/
structure SvData where
  ancillary : Option Rat
  convA : SvFlag
  hydroA : SvFlag
  convR : SvFlag
  hydroR : SvFlag
  uncertainty : List (Option Rat)
  convNumber : Option Nat
  noCon : Nat
  noHydro : Nat
  noRES : Nat
  deriving DecidableEq, Repr

/-- `RES['Uncertainty'][0]`, NW:739; only looked at if there are renewable units -/
def svUnc (d : SvData) : Except PyErr (Option Rat) :=
  if d.noRES = 0 then .ok none else npGet d.uncertainty 0

/-- `np.zeros(n)` with the conventional units stored at the front, NW:716-718 and 751-753 -/
def svConv (n : Nat) (noCon : Nat) : Except PyErr (List Nat) :=
  if noCon ≤ n then .ok (List.range noCon ++ List.replicate (n - noCon) 0) else .error .index

/-- the numbers of the hydropower units, NW:733-735 and 762-764 -/
def svHydro (d : SvData) : List Nat := (List.range d.noHydro).map (fun xg => d.noCon + xg)

/-- the array of the conventional units alone, NW:714-718 -/
def svConvOnly (d : SvData) : Except PyErr (List Nat) :=
  match d.convNumber with
  | some n => svConv n d.noCon
  | none => if d.noCon = 0 then .error .value else .error .index

/-- `s['GAncillary']`, NW:703-735, with the number of services -/
def svAncillary (d : SvData) : Except PyErr (List Nat × Nat) :=
  match d.ancillary with
  | none => .ok ([], 0)
  | some _ =>
    if svTrue d.convA = true then
      if svTrue d.hydroA = true then .ok (List.range d.noCon ++ svHydro d, 1)
      else do
        let l ← svConvOnly d
        .ok (l, 1)
    else if svTrue d.hydroA = true then .ok (svHydro d, 1)
    else .ok ([], 0)

/-- `s['GRES']`, NW:737-765, with the number of services -/
def svSupport (d : SvData) (u : Option Rat) : List Nat × Nat :=
  match u with
  | none => ([], 0)
  | some _ =>
    if svTrue d.convR = true then
      if svTrue d.hydroR = true then (List.range d.noCon ++ svHydro d, 1)
      else (List.range d.noCon, 1)
    else if svTrue d.hydroR = true then (svHydro d, 1)
    else ([], 0)

/-- what `initialise` leaves: `GAncillary`, `GRES`, the number of services and the uncertainty -/
structure SvSets where
  anc : List Nat
  sup : List Nat
  noSer : Nat
  unc : Option Rat
  deriving DecidableEq, Repr

/-- NW:699-770 -/
def svInit (d : SvData) : Except PyErr SvSets := do
  let a ← svAncillary d
  let u ← svUnc d
  .ok ⟨a.1, (svSupport d u).1, a.2 + (svSupport d u).2, u⟩

/-! ## the constraints -/

/-- the number of generators -/
def svNoGen (d : SvData) : Nat := d.noCon + d.noHydro + d.noRES

/-- `sum(m.vNGen[connections['Generation'][xh]+x, xt] for x in Gen.get_GenAll())` -/
def svGenAll (d : SvData) (gen : Nat → Rat) (xh : Nat) : Rat := ((List.range (svNoGen d)).map (fun x => gen (xh * svNoGen d + x))).sum

/-- the renewable units, `Gen.get_GenAllR()` -/
def svGenRES (d : SvData) (gen : Nat → Rat) (xh : Nat) : Rat := ((List.range d.noRES).map (fun x => gen (xh * svNoGen d + (d.noCon + d.noHydro + x)))).sum

/-- `sum(m.vNFea[xh, xt] for xf in range(self.p['faux']))`: the position is the number of the instance; positions that were not declared are a KeyError -/
def svFea (feasibility : Bool) (noh noFea : Nat) (fea : Nat → Rat) (xh : Nat) : Except PyErr Rat :=
  if feasibility = true then (if xh < noh * noFea then .ok (fea xh) else .error .key) else .ok 0

/-- the values that are given: the variables of one period and the available renewable power of each instance -/
structure SvVals where
  gen : Nat → Rat
  fea : Nat → Rat
  avail : Nat → Rat

/-- the settings of the problem -/
structure SvCase where
  data : SvData
  feasibility : Bool
  noh : Nat
  noFea : Nat
  deriving DecidableEq, Repr

/-- the rows `(bigger, smaller)` of the ancillary services, NW:303-307 -/
def svRowsA (c : SvCase) (s : SvSets) (v : SvVals) (serv : Nat → Rat) (xh : Nat) : Except PyErr (List (Rat × Rat)) :=
  match c.data.ancillary with
  | none => .ok []
  | some a => if s.anc.length > 0 then do
      let f ← svFea c.feasibility c.noh c.noFea v.fea xh
      .ok [(svGenAll c.data v.gen xh, serv (xh * s.noSer)), (serv (xh * s.noSer), a * svGenAll c.data v.gen xh - f)]
    else .ok []

/-- the rows of the support of renewables, NW:309-313 -/
def svRowsR (c : SvCase) (s : SvSets) (v : SvVals) (serv : Nat → Rat) (xh : Nat) : Except PyErr (List (Rat × Rat)) :=
  match s.unc with
  | none => .ok []
  | some u => if s.sup.length > 0 then do
      let f ← svFea c.feasibility c.noh c.noFea v.fea xh
      .ok [(svGenAll c.data v.gen xh, serv (s.noSer * (xh + 1) - 1)),
        (v.avail xh * (1 - u) + f + serv (s.noSer * (xh + 1) - 1), svGenRES c.data v.gen xh)]
    else .ok []

/-- the total of the services, NW:299-302 -/
def svRowsS (c : SvCase) (s : SvSets) (v : SvVals) (serv : Nat → Rat) (xh : Nat) : List (Rat × Rat) :=
  if s.anc.length + s.sup.length > 0 then [(svGenAll c.data v.gen xh, ((List.range s.noSer).map (fun xs => serv (xh * s.noSer + xs))).sum)] else []

/-- uncertain renewables without support, NW:315-318 -/
def svRows0 (c : SvCase) (s : SvSets) (v : SvVals) (xh : Nat) : Except PyErr (List (Rat × Rat)) :=
  match s.unc with
  | none => .ok []
  | some u => if s.sup.length = 0 then do
      let f ← svFea c.feasibility c.noh c.noFea v.fea xh
      .ok [(v.avail xh * (1 - u) + f, svGenRES c.data v.gen xh)]
    else .ok []

/-- the constraints of one instance, NW:298-318 -/
def svRows (c : SvCase) (s : SvSets) (v : SvVals) (serv : Nat → Rat) (xh : Nat) : Except PyErr (List (Rat × Rat)) := do
  let a ← svRowsA c s v serv xh
  let r ← svRowsR c s v serv xh
  let z ← svRows0 c s v xh
  .ok (svRowsS c s v serv xh ++ a ++ r ++ z)

/-- the constraints of the services hold, with non-negative services (NW:368-370), in every instance -/
def SvOk (c : SvCase) (s : SvSets) (v : SvVals) (serv : Nat → Rat) : Prop :=
  (∀ i, 0 ≤ serv i) ∧ ∀ xh < c.noh, ∃ rows, svRows c s v serv xh = .ok rows ∧ ∀ r ∈ rows, r.2 ≤ r.1

/-- a dispatch is admitted: the model can be built, and there are services such that the constraints hold -/
def SvAdmitted (c : SvCase) (v : SvVals) : Prop := ∃ s, svInit c.data = .ok s ∧ ∃ serv, SvOk c s v serv

end Pyensys
