import Verif.Model.Graph

/-! # Vocabulary for control graphs and control trees (independent of the conversion algorithm) -/

namespace Pyensys

/-- A layered directed graph with a single root: `lv` is the level of a node, the root is the only
node of level 0, all edges go to the next level, only the nodes of level `L` have no successor. -/
structure Layered (G : List (Nat × Nat)) (lv : Nat → Nat) (L root : Nat) : Prop where
  nodup : G.Nodup
  depth : 0 < L
  step : ∀ a b, (a, b) ∈ G → lv b = lv a + 1
  rootLv : lv root = 0
  rootOnly : ∀ a b, (a, b) ∈ G → lv a = 0 → a = root
  hasPred : ∀ a b, (a, b) ∈ G → 0 < lv a → ∃ c, (c, a) ∈ G
  hasSucc : ∀ a b, (a, b) ∈ G → lv b < L → ∃ c, (b, c) ∈ G
  bounded : ∀ a b, (a, b) ∈ G → lv b ≤ L
  rootFirst : G.head?.map (·.1) = some root

/-- `PathFrom E n p`: `p` is a directed path of `E` that starts at `n`. -/
inductive PathFrom (E : List (Nat × Nat)) : Nat → List Nat → Prop
  | single (n : Nat) : PathFrom E n [n]
  | step {n m : Nat} {p : List Nat} : (n, m) ∈ E → PathFrom E m p → PathFrom E n (n :: p)

/-- `n` is an end of an edge. -/
def IsNode (E : List (Nat × Nat)) (n : Nat) : Prop := ∃ e ∈ E, e.1 = n ∨ e.2 = n

/-- `n` has no successor. -/
def IsLeaf (E : List (Nat × Nat)) (n : Nat) : Prop := ∀ b, (n, b) ∉ E

/-- `T` is a tree rooted in `root`: the root has no predecessor, every other node exactly one, and
every node is reached from the root. -/
structure RootedTree (T : List (Nat × Nat)) (root : Nat) : Prop where
  nodup : T.Nodup
  rootTop : ∀ a, (a, root) ∉ T
  onePred : ∀ a a' b, (a, b) ∈ T → (a', b) ∈ T → a = a'
  reached : ∀ n, IsNode T n → ∃ p, PathFrom T root p ∧ p.getLast? = some n

/-- `ord` is a possible order of iteration of Python sets: every element once. -/
def SetOrder (ord : List Nat → List Nat) : Prop := ∀ l, (ord l).Nodup ∧ ∀ x, x ∈ ord l ↔ x ∈ l

/-- `T` with the map `org` (tree node ↦ graph node it stands for) unfolds `G` from `root`: paths of
`T` from the root are mapped to paths of `G`, each path of `G` from the root is the image of exactly
one of `T`, and leaves stand for leaves. -/
structure Unfolds (T G : List (Nat × Nat)) (org : Nat → Nat) (root : Nat) : Prop where
  rootOrg : org root = root
  down : ∀ q, PathFrom T root q → PathFrom G root (q.map org)
  lift : ∀ p, PathFrom G root p → ∃ q, (PathFrom T root q ∧ q.map org = p) ∧
    ∀ q', PathFrom T root q' → q'.map org = p → q' = q
  leaves : ∀ n, IsNode T n → (IsLeaf T n ↔ IsLeaf G (org n))

end Pyensys
