import Verif.Py
import Mathlib.Data.List.Sort
import Mathlib.Algebra.Order.Field.Rat

/-!
# Model of the centroid computation of the time-series clustering

Source: pyensys/data_processing/clustering.py (CL below), used at
pyensys/Optimisers/ControlGraphsCreator.py:202-209 (CG).

Simplifications: floating point numbers are rationals (`statistics.mean` computes exactly before
rounding).  The labels chosen by scikit-learn's Birch are an arbitrary list of natural numbers, one
per scenario (`fit_predict` returns non-negative integers).
-/

namespace Pyensys

/-- `_enumerate_array`, CL:49-53: pairs (label, scenario). -/
def enumerateArray (labels : List Nat) : List (Nat × Nat) := labels.zipIdx

/-- `_sort_array_by_specific_column(…, 0)`, CL:55-56: Python's `sorted` is stable. -/
def sortByLabel (l : List (Nat × Nat)) : List (Nat × Nat) := l.insertionSort (fun a b => a.1 ≤ b.1)

/-- `_add_scenario_to_clusters_list`, CL:58-67, on the state `(grouped_clusters_values,
current_cluster)`; `none` is the initial `current_cluster = -1` (CL:73), which equals no label. -/
def addToClusters (st : List (List Rat) × Option Nat) (label : Nat) (value : Rat) :
    Except PyErr (List (List Rat) × Option Nat) :=
  if st.2 = some label then
    if label < st.1.length then .ok (st.1.modify label (· ++ [value]), st.2) else .error .index
  else .ok (st.1 ++ [[value]], some label)

/-- Body of the loop CL:75-80. -/
def vstep (data : List Rat) (st : List (List Rat) × Option Nat) (e : Nat × Nat) :
    Except PyErr (List (List Rat) × Option Nat) :=
  match data[e.2]? with
  | none => .error .index
  | some v => addToClusters st e.1 v

/-- `_get_values_by_cluster`, CL:69-81. -/
def valuesByCluster (sorted : List (Nat × Nat)) (data : List Rat) : Except PyErr (List (List Rat)) := do
  let st ← sorted.foldlM (vstep data) (([], none) : List (List Rat) × Option Nat)
  return st.1

/-- `statistics.mean` of a non-empty list -/
def meanOf (l : List Rat) : Rat := l.sum / l.length

/-- `_calculate_average_per_cluster`, CL:83-87 (the groups are never empty). -/
def averagePerCluster (groups : List (List Rat)) : List Rat := groups.map meanOf

/-- Body of the loop CL:92-93. -/
def astep (avg : List Rat) (c : List Rat) (e : Nat × Nat) : Except PyErr (List Rat) :=
  match avg[e.1]? with
  | none => .error .index
  | some a => if e.2 < c.length then .ok (c.set e.2 a) else .error .index

/-- `_assign_centroids`, CL:89-94. -/
def assignCentroids (enumerated : List (Nat × Nat)) (avg : List Rat) : Except PyErr (List Rat) :=
  enumerated.foldlM (astep avg) (List.replicate enumerated.length 0)

/-- `_calculate_single_time_step_centroids`, CL:96-102. -/
def stepCentroids (labels : List Nat) (data : List Rat) : Except PyErr (List Rat) := do
  let en := enumerateArray labels
  let groups ← valuesByCluster (sortByLabel en) data
  assignCentroids en (averagePerCluster groups)

/-- `calculate_clusters_centroids`, CL:117-123, called at CG:207: one row of centroids per time
step; `labels` are the results of Birch for the rows (CL:112-115). -/
def profileCentroids (labels : List (List Nat)) (data : List (List Rat)) : Except PyErr (List (List Rat)) :=
  (labels.zip data).mapM (fun p => stepCentroids p.1 p.2)

end Pyensys
