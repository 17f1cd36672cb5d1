import Verif.Props.MatJsonFile

/-!
# Case files with demands

C157: the matrices of active and reactive demands at the end of a case file.
-/

namespace Pyensys

/-- a row of a matrix of demands: a number and whatever follows it -/
structure MjDemand where
  num : PyNum
  rest : List Tok

/-- tokens of the row -/
def MjDemand.toks (r : MjDemand) : List Tok := r.num.text :: r.rest

/-- a matrix of demands: title, rows, closing line -/
def demandLines (title : String) (head : List Tok) (rows : List MjDemand) (close : List Tok) : List (List Tok) :=
  (title.toList :: head) :: (rows.map MjDemand.toks ++ ["];".toList :: close])

theorem demand_head (v : MjVersion) (r : MjDemand) (h : r.num.Valid) : mjHead v r.toks = .none := by
  have := head_row v r.num h 0 r.rest
  simpa [MjDemand.toks] using this

theorem demand_close (r : MjDemand) (h : r.num.Valid) : ¬ r.toks.head? = some mjClose := by
  have := close_row r.num h 0 r.rest
  simpa [MjDemand.toks] using this

theorem demand_rowP (v : MjVersion) (r : MjDemand) (h : r.num.Valid) (s : MjState) (hi : s.Idle) (l : List Rat) :
    mjBody v r.toks { s with inP := true, demandP := l } = .ok { s with inP := true, demandP := l ++ [r.num.value] } := by
  have hne : ¬ r.toks = [] := by simp [MjDemand.toks]
  unfold mjBody
  rw [if_neg hne]
  simp only [mjBus, mjGen, mjBranch, mjGencost, mjP, mjQ, hi.bus, hi.gen, hi.branch, hi.gencost, hi.q, demand_close r h, bind, Except.bind]
  simp only [MjDemand.toks, C156_numeral r.num h]
  rfl

theorem demand_rowQ (v : MjVersion) (r : MjDemand) (h : r.num.Valid) (s : MjState) (hi : s.Idle) (l : List Rat) :
    mjBody v r.toks { s with inQ := true, demandQ := l } = .ok { s with inQ := true, demandQ := l ++ [r.num.value] } := by
  have hne : ¬ r.toks = [] := by simp [MjDemand.toks]
  unfold mjBody
  rw [if_neg hne]
  simp only [mjBus, mjGen, mjBranch, mjGencost, mjP, mjQ, hi.bus, hi.gen, hi.branch, hi.gencost, hi.p, demand_close r h, bind, Except.bind]
  simp only [MjDemand.toks, C156_numeral r.num h]
  rfl

theorem demand_endP (v : MjVersion) (close : List Tok) (s : MjState) (hi : s.Idle) (l : List Rat) :
    mjBody v ("];".toList :: close) { s with inP := true, demandP := l } = .ok { s with demandP := l } := by
  unfold mjBody
  rw [if_neg (by simp)]
  have hc : (("];".toList :: close).head? = some mjClose) := rfl
  simp only [mjBus, mjGen, mjBranch, mjGencost, mjP, mjQ, hi.bus, hi.gen, hi.branch, hi.gencost, hi.q, hc, bind, Except.bind]
  simp [hi.p]

theorem demand_endQ (v : MjVersion) (close : List Tok) (s : MjState) (hi : s.Idle) (l : List Rat) :
    mjBody v ("];".toList :: close) { s with inQ := true, demandQ := l } = .ok { s with demandQ := l } := by
  unfold mjBody
  rw [if_neg (by simp)]
  have hc : (("];".toList :: close).head? = some mjClose) := rfl
  simp only [mjBus, mjGen, mjBranch, mjGencost, mjP, mjQ, hi.bus, hi.gen, hi.branch, hi.gencost, hi.p, hc, bind, Except.bind]
  simp [hi.q]

theorem demand_rowsP (v : MjVersion) (close : List Tok) (rest : List (List Tok)) (s : MjState) (hi : s.Idle) : ∀ (rows : List MjDemand) (l : List Rat),
    (∀ r ∈ rows, r.num.Valid) →
    mjLoop v (rows.map MjDemand.toks ++ ("];".toList :: close) :: rest) { s with inP := true, demandP := l }
      = mjLoop v rest { s with demandP := l ++ rows.map (fun r => r.num.value) }
  | [], l, _ => by
      rw [List.map_nil, List.nil_append, mjLoop_none v _ _ _ _ (head_close v close) (demand_endP v close s hi l), List.map_nil, List.append_nil]
  | r :: rows, l, h => by
      have hr := h r List.mem_cons_self
      rw [List.map_cons, List.cons_append, mjLoop_none v _ _ _ _ (demand_head v r hr) (demand_rowP v r hr s hi l),
        demand_rowsP v close rest s hi rows _ (fun q hq => h q (List.mem_cons_of_mem _ hq)), List.map_cons, List.append_assoc]
      rfl

theorem demand_rowsQ (v : MjVersion) (close : List Tok) (rest : List (List Tok)) (s : MjState) (hi : s.Idle) : ∀ (rows : List MjDemand) (l : List Rat),
    (∀ r ∈ rows, r.num.Valid) →
    mjLoop v (rows.map MjDemand.toks ++ ("];".toList :: close) :: rest) { s with inQ := true, demandQ := l }
      = mjLoop v rest { s with demandQ := l ++ rows.map (fun r => r.num.value) }
  | [], l, _ => by
      rw [List.map_nil, List.nil_append, mjLoop_none v _ _ _ _ (head_close v close) (demand_endQ v close s hi l), List.map_nil, List.append_nil]
  | r :: rows, l, h => by
      have hr := h r List.mem_cons_self
      rw [List.map_cons, List.cons_append, mjLoop_none v _ _ _ _ (demand_head v r hr) (demand_rowQ v r hr s hi l),
        demand_rowsQ v close rest s hi rows _ (fun q hq => h q (List.mem_cons_of_mem _ hq)), List.map_cons, List.append_assoc]
      rfl

theorem demand_blockP (v : MjVersion) (hv : v ≠ .engine) (head close : List Tok) (rows : List MjDemand) (hr : ∀ r ∈ rows, r.num.Valid)
    (rest : List (List Tok)) (s : MjState) (hi : s.Idle) :
    mjLoop v (demandLines "mpc.demandP" head rows close ++ rest) s = mjLoop v rest { s with demandP := s.demandP ++ rows.map (fun r => r.num.value) } := by
  have hh : mjHead v ("mpc.demandP".toList :: head) = .demandP := by
    unfold mjHead
    dsimp only
    rw [if_neg (by decide +kernel), if_neg (by decide +kernel), if_neg (by decide +kernel), if_neg (by decide +kernel), if_neg (by decide +kernel),
      if_pos ⟨rfl, hv⟩]
  have hrows := demand_rowsP v close rest s hi rows s.demandP hr
  unfold demandLines
  rw [List.cons_append, List.append_assoc]
  rw [show (["];".toList :: close] ++ rest : List (List Tok)) = ("];".toList :: close) :: rest from rfl]
  rw [mjLoop.eq_def]
  dsimp only
  rw [hh]
  dsimp only
  rw [← hrows]
  cases rows with
  | nil =>
    rw [List.map_nil, List.nil_append]
    dsimp only
    conv_rhs => rw [mjLoop.eq_def]
    dsimp only
    rw [head_close v close]
  | cons r rows =>
    rw [List.map_cons, List.cons_append]
    dsimp only
    conv_rhs => rw [mjLoop.eq_def]
    dsimp only
    rw [demand_head v r (hr r List.mem_cons_self)]

theorem demand_blockQ (v : MjVersion) (hv : v ≠ .engine) (head close : List Tok) (rows : List MjDemand) (hr : ∀ r ∈ rows, r.num.Valid)
    (rest : List (List Tok)) (s : MjState) (hi : s.Idle) :
    mjLoop v (demandLines "mpc.demandQ" head rows close ++ rest) s = mjLoop v rest { s with demandQ := s.demandQ ++ rows.map (fun r => r.num.value) } := by
  have hh : mjHead v ("mpc.demandQ".toList :: head) = .demandQ := by
    unfold mjHead
    dsimp only
    rw [if_neg (by decide +kernel), if_neg (by decide +kernel), if_neg (by decide +kernel), if_neg (by decide +kernel), if_neg (by decide +kernel),
      if_neg (fun h => absurd h.1 (by decide +kernel)), if_pos ⟨rfl, hv⟩]
  have hrows := demand_rowsQ v close rest s hi rows s.demandQ hr
  unfold demandLines
  rw [List.cons_append, List.append_assoc]
  rw [show (["];".toList :: close] ++ rest : List (List Tok)) = ("];".toList :: close) :: rest from rfl]
  rw [mjLoop.eq_def]
  dsimp only
  rw [hh]
  dsimp only
  rw [← hrows]

/-- **C157**: matrices of active and reactive demands at the end of such a file: the network of the file, and the demands in the order of the rows (the first number of each).  The old version of the converter does
not know these matrices. -/
theorem C157_demands_partial (v : MjVersion) (hv : v ≠ .engine) (parts : List MjPart) (hok : ∀ p ∈ parts, p.Ok v) (headP closeP headQ closeQ : List Tok)
    (ps qs : List MjDemand) (hp : ∀ r ∈ ps, r.num.Valid) (hq : ∀ r ∈ qs, r.num.Valid) :
    ∃ net, matpower2json v (parts.flatMap MjPart.lines) = .ok net ∧
      matpower2json v (parts.flatMap MjPart.lines ++ (demandLines "mpc.demandP" headP ps closeP ++ demandLines "mpc.demandQ" headQ qs closeQ)) =
        .ok { net with demandP := ps.map (fun r => r.num.value), demandQ := qs.map (fun r => r.num.value) } := by
  have key : ∀ (more : List (List Tok)) (todo done : List MjPart) (s : MjState), (∀ p ∈ todo, p.Ok v) → MjHolds v done s →
      ∃ s', mjLoop v (todo.flatMap MjPart.lines ++ more) s = mjLoop v more s' ∧ MjHolds v (done ++ todo) s' := by
    intro more todo
    induction todo with
    | nil =>
      intro done s _ h
      exact ⟨s, rfl, by rw [List.append_nil]; exact h⟩
    | cons p todo ih =>
      intro done s hp h
      obtain ⟨s1, h1, h2⟩ := part_step v p (hp p (List.mem_cons_self ..)) done (todo.flatMap MjPart.lines ++ more) s h
      obtain ⟨s2, h3, h4⟩ := ih (done ++ [p]) s1 (fun q hq => hp q (List.mem_cons_of_mem _ hq)) h1
      refine ⟨s2, ?_, by rw [List.append_assoc, List.singleton_append] at h4; exact h4⟩
      rw [List.flatMap_cons, List.append_assoc, h2, h3]
  obtain ⟨net, h0, e1, e2, e3, e4, e5, e6, e7, e8, e9, _, _⟩ := C157_file_partial v parts hok
  refine ⟨net, h0, ?_⟩
  obtain ⟨s, h1, h2⟩ := key (demandLines "mpc.demandP" headP ps closeP ++ demandLines "mpc.demandQ" headQ qs closeQ) parts [] {} hok
    ⟨⟨rfl, rfl, rfl, rfl, rfl, rfl⟩, rfl, rfl, rfl, rfl, rfl, rfl, rfl, rfl⟩
  rw [List.nil_append] at h2
  have hi := h2.idle
  have hq' := demand_blockQ v hv headQ closeQ qs hq [] { s with demandP := s.demandP ++ ps.map (fun r => r.num.value) }
    ⟨hi.bus, hi.gen, hi.branch, hi.gencost, hi.p, hi.q⟩
  rw [List.append_nil] at hq'
  unfold matpower2json
  rw [h1, demand_blockP v hv headP closeP ps hp _ s hi, hq', mjLoop.eq_def]
  dsimp only [Except.map]
  rw [h2.p, h2.q, List.nil_append, List.nil_append]
  congr 1
  rw [MjNet.mk.injEq]
  refine ⟨?_, ?_, ?_, ?_, ?_, ?_, ?_, ?_, ?_, rfl, rfl⟩
  · rw [e1, h2.base]
  · rw [e3, h2.bus, columns_count 13 _ (by omega)]
  · rw [e7, h2.branch, columns_count 13 _ (by omega)]
  · rw [e5, h2.gen, columns_count 21 _ (by omega)]
  · rw [e8, h2.slack]
  · rw [e2, h2.bus]
  · rw [e6, h2.branch]
  · rw [e4, h2.gen]
  · rw [e9, h2.gencost]

theorem C157_demands_witness : ((matpower2json .attest [toks ["mpc.baseMVA", "=", "100;"], toks ["mpc.demandP", "=", "["], toks ["1.5", "%", "one"], toks ["2e1"], toks ["];"],
    toks ["mpc.demandQ", "=", "["], toks ["-3"], toks ["];"]]).toOption.map (fun n => (n.base, n.demandP, n.demandQ))) = some (some 100, [3 / 2, 20], [-3]) := by
  decide +kernel

end Pyensys
