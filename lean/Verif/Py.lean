/-!
# Python-level vocabulary shared by all models

`PyErr` lists the Python exceptions that the modelled code can raise.  Functions that may raise
return `Except PyErr _`.
-/

namespace Pyensys

/-- Python exceptions raised by the modelled code (`recursion` also stands for the fuel of a
recursive model running out, i.e. for Python's `RecursionError`). -/
inductive PyErr
  | key | type | attribute | index | value | name | assertion | zeroDivision | recursion | runtime
  | noneArith
  deriving DecidableEq, Repr

/-- Python list indexing `l[i]` for an integer `i`, negative indices counting from the end
(language semantics, used e.g. at NonAnticipativeRecursiveFunction.py:204-205). -/
def pyGet {α : Type} (l : List α) (i : Int) : Except PyErr α :=
  let j : Int := if i < 0 then i + l.length else i
  if j < 0 then .error .index
  else match l[j.toNat]? with
    | some a => .ok a
    | none => .error .index

end Pyensys
