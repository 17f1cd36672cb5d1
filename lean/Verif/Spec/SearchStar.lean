import Verif.Spec.Search

/-! # Planning problems of two stages -/

namespace Pyensys

/-- A planning problem of two stages: the root has at least two successors, which are leaves; the
nodes are the root and the leaves; distinct pool keys, return rate below or above 100 %, two years in
order, interventions available at once; the OPF is a function of the node and of the set of active
interventions. -/
structure TwoStage (cfg : Cfg) (leaves : List Nat) : Prop where
  root : cfg.nbr 0 = leaves
  many : 2 ≤ leaves.length
  nodup : leaves.Nodup
  zero : 0 ∉ leaves
  leaf : ∀ l ∈ leaves, cfg.nbr l = []
  nodes : cfg.nodes.Nodup
  memNodes : ∀ n, n ∈ cfg.nodes ↔ n = 0 ∨ n ∈ leaves
  pool : (cfg.pool.map (·.1)).Nodup
  rate : cfg.rate ≠ 100
  years : 2 ≤ cfg.years.length
  sorted : Sorted cfg
  instant : ∀ e ∈ cfg.pool, e.2.installationTime ≤ 0
  opf : ∀ (log : List Request) (n : Nat) (a b : List BinVar), a.Perm b →
    cfg.opf log ⟨n, a⟩ = cfg.opf [] ⟨n, b⟩

end Pyensys
