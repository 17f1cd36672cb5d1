import Verif.Py

/-! # Data classes shared by several models -/

namespace Pyensys

/-- `element_position` of a `BinaryVariable` / `parameter_position` of an `UpdateParameterData`:
an `int` for a single element, a list of (1-based) line numbers for a cluster
(PandaPowerManager.py:145, 190-194). -/
inductive Pos
  | single (i : Int)
  | cluster (l : List Int)
  deriving DecidableEq, Repr

/-- `capacity_to_be_added_MW`: a number, a list of numbers, or the default `''`
(PandapowerDataClasses.py:46). -/
inductive Cap
  | num (x : Rat)
  | list (l : List Rat)
  | text
  deriving DecidableEq, Repr

/-- `BinaryVariable`, RecursiveFunction.py:73-81. -/
structure BinVar where
  elementId : String := ""
  cost : Rat := 0
  position : Pos := .single 0
  elementType : String := ""
  variableName : String := ""
  installationTime : Int := -1
  capacity : Cap := .num 0
  deriving DecidableEq, Repr

/-- `BinaryVariable.__eq__`, RecursiveFunction.py:83-88: `installation_time` is *not* compared. -/
def BinVar.pyEq (a b : BinVar) : Bool :=
  decide (a.elementId = b.elementId) && decide (a.cost = b.cost) &&
  decide (a.position = b.position) && decide (a.elementType = b.elementType) &&
  decide (a.variableName = b.variableName) && decide (a.capacity = b.capacity)

instance : BEq BinVar := ⟨BinVar.pyEq⟩

/-- One entry of `optimisation_binary_variables`, ReaderDataClasses.py:99-107 (only the fields the
solver reads). -/
structure OptionGroup where
  elementType : String
  variableName : String
  positions : List Pos
  costs : List Rat
  installationTimes : List Int
  capacities : List Cap
  deriving DecidableEq, Repr

end Pyensys
