import Verif.Model.Energy

/-!
# Model of the parameters of devices and networks: `get_element`, `set_element`, `get_objects`, `set_objects`

Source: pyensys/engines/pyene_Parameters.py (PA below): `_CommonMethods` 13-96, `ElectricityNetwork` 170-257 (constructor), 310-470 (access to objects), classes of devices 98-168 and 576-621.

Python lists and objects are shared, so the model has a heap: lists of parameters, objects (class and dictionary) and lists of objects have addresses; a value is an atom or the address of a
list.  An `assert` of a non-empty text (PA:50-54, 68-72, 92-96, ...) never fails: it is left out.  Lists within lists of parameters are not modelled.
-/

namespace Pyensys

/-- a number, a text or `None` -/
inductive ElAtom
  | none
  | num (r : Rat)
  | text (s : String)
  deriving DecidableEq, Repr

/-- the value of a parameter: an atom or the address of a list -/
inductive ElVal
  | atom (a : ElAtom)
  | ref (r : Nat)
  deriving DecidableEq, Repr

/-- an object: its class and its dictionary `_data` -/
structure ElObj where
  cls : String
  data : List (String × ElVal)
  deriving DecidableEq, Repr

/-- the heap -/
structure ElHeap where
  lists : List (List ElAtom)
  objs : List ElObj
  olists : List (List Nat)
  deriving DecidableEq, Repr

/-- the argument `pos`: ':', a position or a list of positions -/
inductive ElPos
  | all
  | one (i : Int)
  | some (l : List Int)
  deriving DecidableEq, Repr

/-- `name in self._data` and `self._data[name]` -/
def elLookup (d : List (String × ElVal)) (name : String) : Option ElVal := d.lookup name

/-- `self._data[name] = val` for a key that is there -/
def elReplace (d : List (String × ElVal)) (name : String) (v : ElVal) : List (String × ElVal) := d.map (fun e => if e.1 = name then (e.1, v) else e)

/-- `get_element`, PA:21-54: `None` for an unknown name; a list of positions gives a new list -/
def getElement (h : ElHeap) (obj : Nat) (name : Option String) (pos : ElPos) : Except PyErr (ElVal × ElHeap) :=
  match name with
  | none => .error .assertion
  | some n => do
    let o ← npGet h.objs obj
    match elLookup o.data n with
    | none => .ok (.atom .none, h)
    | some (.atom a) => .ok (.atom a, h)
    | some (.ref r) =>
      match pos with
      | .all => .ok (.ref r, h)
      | .one i => do
        let l ← npGet h.lists r
        let a ← pyGet l i
        .ok (.atom a, h)
      | .some is => do
        let l ← npGet h.lists r
        let q ← is.mapM (fun i => pyGet l i)
        .ok (.ref h.lists.length, ⟨h.lists ++ [q], h.objs, h.olists⟩)

/-- `get_no_elements`, PA:56-72: `None` (here `none`) unless the parameter is a list -/
def getNoElements (h : ElHeap) (obj : Nat) (name : Option String) : Except PyErr (Option Nat) :=
  match name with
  | none => .error .assertion
  | some n => do
    let o ← npGet h.objs obj
    match elLookup o.data n with
    | some (.ref r) => do
      let l ← npGet h.lists r
      .ok (some l.length)
    | _ => .ok none

/-- the kinds that `set_element` accepts, PA:81-96 -/
def elSameKind : ElVal → ElVal → Bool
  | .atom _, .atom _ => true
  | .ref _, .ref _ => true
  | _, _ => false

/-- `set_element`, PA:74-96: nothing happens for an unknown name -/
def setElement (h : ElHeap) (obj : Nat) (name : Option String) (v : ElVal) : Except PyErr ElHeap :=
  match name with
  | none => .error .assertion
  | some n => do
    let o ← npGet h.objs obj
    match elLookup o.data n with
    | none => .ok h
    | some old => if elSameKind old v = true then .ok ⟨h.lists, h.objs.set obj ⟨o.cls, elReplace o.data n v⟩, h.olists⟩ else .error .assertion

/-- a list that the caller holds is changed in place -/
def elChange (h : ElHeap) (r : Nat) (l : List ElAtom) : ElHeap := ⟨h.lists.set r l, h.objs, h.olists⟩

/-- a new object: parameters that are `None`, then parameters that are lists, each a new empty one, PA:100-122, 148-168, 578-596 -/
def elNew (h : ElHeap) (cls : String) (atoms lists : List String) : Nat × ElHeap :=
  (h.objs.length, ⟨h.lists ++ lists.map (fun _ => []), h.objs ++ [⟨cls, atoms.map (fun a => (a, .atom .none)) ++ lists.zipIdx.map (fun q => (q.1, .ref (h.lists.length + q.2)))⟩], h.olists⟩)

/-! ## networks -/

/-- a network: the address of its own dictionary and, under their names, the addresses of its lists of objects -/
structure ElNet where
  self : Nat
  objects : List (String × Nat)
  deriving DecidableEq, Repr

/-- the names, PA:193-200 and 212-215 -/
def elNames : List String := ["bus", "conv", "hydro", "RES", "transformers", "transmissionline"]
def elParams : List String := ["baseMVA", "Slack", "Security", "Threewindinginitial", "voltagethreewindingtrafos"]

/-- `get_objects(name, ':')` and `get_objects(name, pos)`, PA:333-359: address of the list, or of the object -/
def getObject (h : ElHeap) (n : ElNet) (name : String) (pos : Int) : Except PyErr (Option Nat) :=
  match n.objects.lookup name with
  | none => .ok none
  | some l => do
    let os ← npGet h.olists l
    let o ← pyGet os pos
    .ok (some o)

/-- `set_objects`, PA:405-434: the list itself is taken -/
def setObjects (h : ElHeap) (n : ElNet) (name : Option String) (l : Option Nat) : Except PyErr ElNet :=
  match name, l with
  | none, _ => .error .assertion
  | some _, none => .error .assertion
  | some k, some l =>
    match n.objects.lookup k with
    | none => .ok n
    | some old => do
      let new ← npGet h.olists l
      let first ← npGet new 0
      let o ← npGet h.objs first
      let olds ← npGet h.olists old
      let oldFirst ← npGet olds 0
      let p ← npGet h.objs oldFirst
      if o.cls = p.cls then .ok ⟨n.self, n.objects.map (fun e => if e.1 = k then (e.1, l) else e)⟩ else .error .assertion

/-- one parameter of `set_electricity_network_data`, PA:468-469 -/
def copyParam (self ob : Nat) (h : ElHeap) (k : String) : Except PyErr ElHeap := do
  let r ← getElement h ob (some k) .all
  setElement r.2 self (some k) r.1

/-- one list of objects of `set_electricity_network_data`, PA:466-467 -/
def copyObjects (h : ElHeap) (ob : ElNet) (n : ElNet) (k : String) : Except PyErr ElNet := setObjects h n (some k) (ob.objects.lookup k)

/-- `set_electricity_network_data`, PA:461-469 -/
def setNetworkData (h : ElHeap) (n ob : ElNet) : Except PyErr (ElNet × ElHeap) := do
  let n' ← (n.objects.map (fun e => e.1)).foldlM (copyObjects h ob) n
  let h' ← elParams.foldlM (copyParam n.self ob.self) h
  .ok (n', h')

/-- `get_object_elements`, PA:361-393 -/
def getObjectElements (h : ElHeap) (n : ElNet) (name : Option String) (elem : Option String) (posElem : ElPos) (pos : Option Int) : Except PyErr (ElVal × ElHeap) :=
  match name, pos with
  | none, _ => .error .assertion
  | some _, none => .error .assertion
  | some k, some i => do
    let o ← getObject h n k i
    match o with
    | none => .ok (.atom .none, h)
    | some a => getElement h a elem posElem

/-- `set_object_elements`, PA:436-459 -/
def setObjectElements (h : ElHeap) (n : ElNet) (name : Option String) (elem : Option String) (v : ElVal) (pos : Option Int) : Except PyErr ElHeap :=
  match name, pos with
  | none, _ => .error .assertion
  | some _, none => .error .assertion
  | some k, some i => do
    let o ← getObject h n k i
    match o with
    | none => .ok h
    | some a => setElement h a elem v

end Pyensys
