import Verif.Py

/-!
# Model of `AbstractDataContainer` and of the container difference

Source: pyensys/DataContainersInterface/AbstractDataContainer.py and
pyensys/DataContainersInterface/OperationsAbstractDataContainer.py.

`K` is the key type (Python `str`), `V` the value type.  `==` on values is the `BEq V` instance
(Python `__eq__`, which user classes override).  A Python `dict` is an association list in insertion
order; the list-mode container is the list of its `[key, value]` items.
-/

namespace Pyensys

variable {K V : Type} [DecidableEq K]

/-- Value of the attribute `_container` (AbstractDataContainer.py:6, 96, 100): `None`, a `dict`
or a `list` of `[key, value]` items. -/
inductive Store (K V : Type)
  | none
  | dict (d : List (K × V))
  | list (l : List (K × V))
  deriving DecidableEq, Repr

/-- The object: AbstractDataContainer.py:5-8.  The iterator attribute is modelled separately
(`Iter` below). -/
structure ADC (K V : Type) where
  store : Store K V
  isDict : Bool
  isList : Bool
  deriving DecidableEq, Repr

/-! ## Python `dict` primitives (language semantics) -/

/-- `d.get(k)` of a Python dict. -/
def dictGet? (d : List (K × V)) (k : K) : Option V := (d.find? (fun e => e.1 = k)).map (·.2)

/-- `d[k] = v` of a Python dict: an existing key keeps its position. -/
def dictSet (d : List (K × V)) (k : K) (v : V) : List (K × V) :=
  if d.any (fun e => e.1 = k) then d.map (fun e => if e.1 = k then (e.1, v) else e)
  else d ++ [(k, v)]

/-- `del d[k]` part of `d.pop(k)`. -/
def dictErase (d : List (K × V)) (k : K) : List (K × V) := d.filter (fun e => e.1 ≠ k)

/-- `d.update(o)`. -/
def dictUpdate (d o : List (K × V)) : List (K × V) := o.foldl (fun acc e => dictSet acc e.1 e.2) d

/-! ## list-mode primitives (the bodies of the loops in the class) -/

/-- First item with key `k`: the loops at AbstractDataContainer.py:14-16 and 113-116. -/
def listGet? (l : List (K × V)) (k : K) : Option V := (l.find? (fun e => e.1 = k)).map (·.2)

/-- Loop at AbstractDataContainer.py:22-24: assigns to *every* matching item. -/
def listSet (l : List (K × V)) (k : K) (v : V) : List (K × V) :=
  l.map (fun e => if e.1 = k then (e.1, v) else e)

/-- AbstractDataContainer.py:139-142: position of the *last* item with key `k`
(`none` stands for `-1`).  `i` is the enumerate counter, `acc` the current `item_position`. -/
def lastPos (k : K) : List (K × V) → Nat → Option Nat → Option Nat
  | [], _, acc => acc
  | e :: l, i, acc => lastPos k l (i + 1) (if e.1 = k then some i else acc)

/-- AbstractDataContainer.py:139-145: remove the last item with key `k`. -/
def listPop (l : List (K × V)) (k : K) : Except PyErr (V × List (K × V)) :=
  match lastPos k l 0 none with
  | .none => .error .key
  | .some p => match l[p]? with
    | some e => .ok (e.2, l.eraseIdx p)
    | .none => .error .index

namespace ADC

/-- AbstractDataContainer.py:5-8. -/
def new : ADC K V := ⟨.none, false, false⟩

/-- AbstractDataContainer.py:95-97 (note: `_is_list` is left as it is). -/
def createDictionary (c : ADC K V) : ADC K V := { c with store := .dict [], isDict := true }

/-- AbstractDataContainer.py:99-101 (note: `_is_dictionary` is left as it is). -/
def createList (c : ADC K V) : ADC K V := { c with store := .list [], isList := true }

/-- `__getitem__`, AbstractDataContainer.py:10-16.  `ok none` is Python's `None`. Subscripting a
Python list (or `None`) with a `str` raises TypeError. -/
def getItem (c : ADC K V) (k : K) : Except PyErr (Option V) :=
  if c.isDict then
    match c.store with
    | .dict d => match dictGet? d k with
      | some v => .ok (some v)
      | .none => .error .key
    | _ => .error .type
  else if c.isList then
    match c.store with
    | .list l => .ok (listGet? l k)
    | .dict _ => .error .index      -- unreachable through the API
    | .none => .error .type         -- unreachable through the API
  else .ok .none

/-- `__setitem__`, AbstractDataContainer.py:18-24. -/
def setItem (c : ADC K V) (k : K) (v : V) : Except PyErr (ADC K V) :=
  if c.isDict then
    match c.store with
    | .dict d => .ok { c with store := .dict (dictSet d k v) }
    | _ => .error .type
  else if c.isList then
    match c.store with
    | .list l => .ok { c with store := .list (listSet l k v) }
    | _ => .error .type             -- unreachable through the API
  else .ok c

/-- `__len__`, AbstractDataContainer.py:40-44. -/
def len (c : ADC K V) : Nat :=
  match c.store with
  | .none => 0
  | .dict d => d.length
  | .list l => l.length

/-- The sequence of `(key, value)` pairs that one undisturbed `for` loop yields,
AbstractDataContainer.py:26-38.  `error type` on an uninitialised container, whose `__next__`
returns `None` for ever (modelled as an error: unpacking `None` raises TypeError). -/
def items (c : ADC K V) : Except PyErr (List (K × V)) :=
  if c.isDict then
    match c.store with
    | .dict d => .ok d
    | _ => .error .attribute
  else if c.isList then
    match c.store with
    | .list l => .ok l
    | _ => .error .type
  else .error .type

/-- Equality of the two `_container` attributes, used at AbstractDataContainer.py:50, 62:
Python dict equality ignores the order, list equality does not. -/
def storeEq [BEq V] : Store K V → Store K V → Bool
  | .none, .none => true
  | .dict a, .dict b =>
      a.length == b.length && a.all (fun e => match dictGet? b e.1 with
        | some v => e.2 == v
        | .none => false)
  | .list a, .list b => a.length == b.length &&
      (a.zip b).all (fun p => decide (p.1.1 = p.2.1) && p.1.2 == p.2.2)
  | _, _ => false

/-- `__eq__`, AbstractDataContainer.py:46-56. -/
def eq [BEq V] (c o : ADC K V) : Except PyErr Bool :=
  if (c.isDict && o.isDict) || (c.isList && o.isList) then .ok (storeEq c.store o.store)
  else if !c.isDict && !c.isList && !o.isDict && !o.isList then .ok true
  else .error .type

/-- `__ne__`, AbstractDataContainer.py:58-66. -/
def ne [BEq V] (c o : ADC K V) : Except PyErr Bool :=
  if (c.isDict && o.isDict) || (c.isList && o.isList) then .ok (!storeEq c.store o.store)
  else .error .type

/-- `_compare_dictionaries`, AbstractDataContainer.py:83-87. -/
def compareDictionaries [BEq V] (self other : List (K × V)) : Bool :=
  other.all (fun e => match dictGet? self e.1 with
    | some v => match dictGet? other e.1 with
      | some w => v == w
      | .none => false
    | .none => false)

/-- `item in container` for a `[key, value]` item: key equality and value `==`
(AbstractDataContainer.py:91, OperationsAbstractDataContainer.py:38). -/
def itemMem [BEq V] (l : List (K × V)) (e : K × V) : Bool :=
  l.any (fun x => decide (x.1 = e.1) && (x.2 == e.2))

/-- `_compare_lists`, AbstractDataContainer.py:89-93. -/
def compareLists [BEq V] (self other : List (K × V)) : Bool := other.all (fun e => itemMem self e)

/-- `other in self`, i.e. `self.__contains__(other)`, AbstractDataContainer.py:68-77. -/
def contains [BEq V] (self other : ADC K V) : Except PyErr Bool :=
  if self.isDict && other.isDict then
    match self.store, other.store with
    | .dict a, .dict b => .ok (compareDictionaries a b)
    | _, .dict b => .ok b.isEmpty     -- a key is never `in` a list of `[key, value]` lists
    | _, _ => .error .attribute
  else if self.isList && other.isList then
    match self.store, other.store with
    | .list a, .list b => .ok (compareLists a b)
    | _, _ => .error .type          -- unreachable through the API
  else .error .type

/-- `append`, AbstractDataContainer.py:103-107. -/
def append (c : ADC K V) (k : K) (v : V) : Except PyErr (ADC K V) :=
  if c.isDict then
    match c.store with
    | .dict d => .ok { c with store := .dict (dictSet d k v) }
    | _ => .error .type
  else if c.isList then
    match c.store with
    | .list l => .ok { c with store := .list (l ++ [(k, v)]) }
    | _ => .error .attribute        -- unreachable through the API
  else .ok c

/-- `get`, AbstractDataContainer.py:109-116. -/
def get (c : ADC K V) (k : K) : Except PyErr (Option V) :=
  if c.isDict then
    match c.store with
    | .dict d => .ok (dictGet? d k)
    | _ => .error .attribute
  else if c.isList then
    match c.store with
    | .list l => .ok (listGet? l k)
    | _ => .error .type             -- unreachable through the API
  else .ok .none

/-- `get_values_as_list`, AbstractDataContainer.py:118-122 (`none` is Python's `None`). -/
def values (c : ADC K V) : Except PyErr (Option (List V)) :=
  if c.isDict then
    match c.store with
    | .dict d => .ok (some (d.map (·.2)))
    | _ => .error .attribute
  else if c.isList then
    match c.store with
    | .list l => .ok (some (l.map (·.2)))
    | _ => .error .type             -- unreachable through the API
  else .ok .none

/-- `extend`, AbstractDataContainer.py:124-133. -/
def extend (c o : ADC K V) : Except PyErr (ADC K V) :=
  if c.isDict && o.isDict then
    match c.store, o.store with
    | .dict a, .dict b => .ok { c with store := .dict (dictUpdate a b) }
    | .dict a, .list b => .ok { c with store := .dict (dictUpdate a b) }  -- `dict.update` also takes
                                                                          -- a list of pairs
    | _, _ => .error .attribute
  else if c.isList && o.isList then
    match c.store, o.store with
    | .list a, .list b => .ok { c with store := .list (a ++ b) }
    | _, _ => .error .type          -- unreachable through the API
  else .error .type

/-- `pop`, AbstractDataContainer.py:135-145. -/
def pop (c : ADC K V) (k : K) : Except PyErr (Option V × ADC K V) :=
  if c.isDict then
    match c.store with
    | .dict d => match dictGet? d k with
      | some v => .ok (some v, { c with store := .dict (dictErase d k) })
      | .none => .error .key
    | _ => .error .type
  else if c.isList then
    match c.store with
    | .list l => match listPop l k with
      | .ok (v, l') => .ok (some v, { c with store := .list l' })
      | .error e => .error e
    | _ => .error .type             -- unreachable through the API
  else .ok (.none, c)

end ADC

/-! ## Container difference -/

/-- `_calculate_difference_if_containers_are_lists`,
OperationsAbstractDataContainer.py:33-39. -/
def differenceLists [BEq V] (a b : List (K × V)) : List (K × V) :=
  a.filter (fun e => !ADC.itemMem b e)

/-- `_calculate_difference_if_containers_are_dictionaries`,
OperationsAbstractDataContainer.py:42-50.  `isNone v` says that the Python value is `None`
(line 47 tests `is not None`). The loop over `b` looks up the *original* `a` (line 47-48) and pops from
the copy; a key of `b` occurs once (it is a dict), so the pop always succeeds. -/
def differenceDicts [BEq V] (isNone : V → Bool) (a b : List (K × V)) : List (K × V) :=
  b.foldl (fun acc e => match dictGet? a e.1 with
    | some v => if !isNone v && v == e.2 then dictErase acc e.1 else acc
    | .none => acc) a

/-- `difference_abstract_data_containers`, OperationsAbstractDataContainer.py:7-30.  Both
arguments are containers, so the `isinstance` test (lines 16-20) succeeds. -/
def difference [BEq V] (isNone : V → Bool) (a b : ADC K V) : Except PyErr (ADC K V) :=
  if a.isDict && b.isDict then
    match a.store, b.store with
    | .dict x, .dict y => .ok { a with store := .dict (differenceDicts isNone x y) }
    | _, _ => .error .attribute
  else if a.isList && b.isList then
    match a.store, b.store with
    | .list x, .list y => .ok { a with store := .list (differenceLists x y) }
    | _, _ => .error .type          -- unreachable through the API
  else .error .type

/-! ## Iteration (the container is its own iterator) -/

/-- A container together with its attribute `_container_iterator`
(AbstractDataContainer.py:26-31): position of the next item, `none` before the first `iter`. -/
structure IterState where
  pos : Option Nat
  deriving DecidableEq, Repr

/-- `__iter__`, AbstractDataContainer.py:26-31: restarts the one shared iterator. -/
def iterStart (_ : IterState) : IterState := ⟨some 0⟩

/-- `__next__`, AbstractDataContainer.py:33-38, on a container with items `l`; `none` stands for
`StopIteration`. -/
def iterNext (l : List (K × V)) (s : IterState) : Option (K × V) × IterState :=
  match s.pos with
  | .none => (.none, s)
  | some p => match l[p]? with
    | some e => (some e, ⟨some (p + 1)⟩)
    | .none => (.none, s)

/-- The body of `for k, v in c: body` after the initial `iter(c)` call; the body may itself use the
container's iterator, hence it transforms the iterator state (and an accumulator `T`).
`fuel` bounds the number of iterations. -/
def forLoop {T : Type} (l : List (K × V)) (body : K × V → IterState × T → IterState × T) :
    Nat → IterState × T → IterState × T
  | 0, s => s
  | n + 1, (it, t) =>
    match iterNext l it with
    | (.none, it') => (it', t)
    | (some e, it') => forLoop l body n (body e (it', t))

/-- `for k, v in c: body`. -/
def forIn {T : Type} (l : List (K × V)) (body : K × V → IterState × T → IterState × T) (fuel : Nat)
    (s : IterState × T) : IterState × T :=
  forLoop l body fuel (iterStart s.1, s.2)

end Pyensys
