import Verif.Props.MatJsonFile

/-!
# C158-C160: the two readers of case files agree; what the converter loses; where it looks for the file
-/

namespace Pyensys

/-! ## C158 -/

/-- numerals that both readers understand: an exponent has a small letter and a sign, and no semicolon follows it -/
def BothOk (n : PyNum) (semis : Nat) : Prop := ∀ c s k, n.exp = some (c, s, k) → c = false ∧ s ≠ none ∧ semis = 0

/-- the same numeral in the grammar of the other reader -/
def toNumeral (n : PyNum) (semis : Nat) : Numeral where
  lead := if n.sign = some false then ['+'] else []
  neg := decide (n.sign = some true)
  int := n.int
  point := n.point
  frac := n.frac
  exp := n.exp.map (fun e => (decide (e.2.1 ≠ some true), e.2.2))
  trail := List.replicate semis ';'

theorem toNumeral_text (n : PyNum) (semis : Nat) (h : BothOk n semis) : (toNumeral n semis).text = n.text ++ List.replicate semis ';' := by
  have hs : (toNumeral n semis).lead ++ (if (toNumeral n semis).neg then ['-'] else []) = PyNum.signText n.sign := by
    unfold toNumeral
    dsimp only
    rcases n.sign with _ | _ | _ <;> rfl
  have he : Pyensys.expText (toNumeral n semis).exp = PyNum.expText n.exp := by
    unfold toNumeral
    dsimp only
    rcases hx : n.exp with _ | ⟨c, s, k⟩
    · rfl
    · obtain ⟨h1, h2, _⟩ := h c s k hx
      subst h1
      rcases s with _ | _ | _
      · exact absurd rfl h2
      · rfl
      · rfl
  unfold Numeral.text PyNum.text PyNum.mantissaText
  rw [← List.append_assoc (toNumeral n semis).lead, hs, he]
  simp [toNumeral, List.append_assoc]

theorem toNumeral_value (n : PyNum) (semis : Nat) (h : BothOk n semis) : (toNumeral n semis).value = n.value := by
  have he : expFactor (toNumeral n semis).exp = (10 : Rat) ^ n.power := by
    unfold toNumeral PyNum.power
    dsimp only
    rcases hx : n.exp with _ | ⟨c, s, k⟩
    · simp [expFactor]
    · obtain ⟨_, h2, _⟩ := h c s k hx
      rcases s with _ | _ | _
      · exact absurd rfl h2
      · simp [expFactor, PyNum.signValue]
      · simp [expFactor, PyNum.signValue]
  unfold Numeral.value PyNum.value
  rw [he]
  simp only [toNumeral, mul_assoc]
  congr 1
  have : ∀ x : Option Bool, (if decide (x = some true) = true then (-1 : Rat) else 1) = (PyNum.signValue x : Rat) := by
    intro x
    rcases x with _ | _ | _ <;> simp [PyNum.signValue]
  exact this n.sign

theorem junk_semis (k : Nat) : Junk (List.replicate k ';') := by
  intro c hc
  rw [List.eq_of_mem_replicate hc]
  decide

theorem toNumeral_valid (n : PyNum) (semis : Nat) (hv : n.Valid) (h : BothOk n semis) : (toNumeral n semis).Valid where
  digits := hv.digits
  frac := hv.frac
  lead := by
    unfold toNumeral
    dsimp only
    split
    · decide
    · intro c hc
      cases hc
  trail := junk_semis semis
  noMinus := by
    unfold toNumeral
    dsimp only
    split <;> decide
  sign := by
    unfold toNumeral
    dsimp only
    intro h0
    rw [if_neg]
    rw [decide_eq_true_eq] at h0
    rw [h0]
    decide
  exp := by
    intro p k h0
    unfold toNumeral at h0 ⊢
    dsimp only at h0 ⊢
    rw [Option.map_eq_some_iff] at h0
    obtain ⟨⟨c, s, k'⟩, h1, h2⟩ := h0
    cases h2
    exact ⟨hv.exp c s k' h1, by rw [(h c s k' h1).2.2]; rfl⟩

/-- the numerals of a row -/
def lineNumerals : List PyNum → Nat → List Numeral
  | [], _ => []
  | [n], k => [toNumeral n k]
  | n :: ns, k => toNumeral n 0 :: lineNumerals ns k

/-- both readers understand the numbers of a row -/
def RowBoth : List PyNum → Nat → Prop
  | [], _ => True
  | [n], k => BothOk n k
  | n :: ns, k => BothOk n 0 ∧ RowBoth ns k

theorem lineNumerals_spec (ns : List PyNum) (k : Nat) (hv : ∀ n ∈ ns, n.Valid) (h : RowBoth ns k) :
    (lineNumerals ns k).map Numeral.text = withSemis (ns.map PyNum.text) k ∧ (lineNumerals ns k).map Numeral.value = ns.map PyNum.value ∧
      ∀ n ∈ lineNumerals ns k, n.Valid := by
  induction ns with
  | nil => exact ⟨rfl, rfl, fun n hn => by cases hn⟩
  | cons n ns ih =>
    have hn := hv n (List.mem_cons_self ..)
    cases ns with
    | nil =>
      refine ⟨?_, ?_, ?_⟩
      · show [(toNumeral n k).text] = [n.text ++ List.replicate k ';']
        rw [toNumeral_text n k h]
      · show [(toNumeral n k).value] = [n.value]
        rw [toNumeral_value n k h]
      · intro m hm
        rw [show lineNumerals [n] k = [toNumeral n k] from rfl, List.mem_singleton] at hm
        rw [hm]
        exact toNumeral_valid n k hn h
    | cons m ms =>
      obtain ⟨h0, h'⟩ := h
      obtain ⟨i1, i2, i3⟩ := ih (fun x hx => hv x (List.mem_cons_of_mem _ hx)) h'
      refine ⟨?_, ?_, ?_⟩
      · show (toNumeral n 0).text :: (lineNumerals (m :: ms) k).map Numeral.text = n.text :: withSemis ((m :: ms).map PyNum.text) k
        rw [i1, toNumeral_text n 0 h0]
        simp
      · show (toNumeral n 0).value :: (lineNumerals (m :: ms) k).map Numeral.value = n.value :: (m :: ms).map PyNum.value
        rw [i2, toNumeral_value n 0 h0]
      · intro x hx
        rcases List.mem_cons.1 hx with rfl | hx
        · exact toNumeral_valid n 0 hn h0
        · exact i3 x hx

/-- what the other reader saves for a part (the costs: six columns) -/
def MjPart.saves : MjPart → Option (String × MatVal)
  | .other _ => none
  | .base _ n _ _ => some ("baseMVA", .num n.value)
  | .bus _ rows _ => some ("bus", .mat (rowValues rows))
  | .gen _ rows _ => some ("gen", .mat (rowValues rows))
  | .branch _ rows _ => some ("branch", .mat (rowValues rows))
  | .gencost _ rows _ => some ("gencost", .mat ((rowValues rows).map (List.take 6)))

/-- parts that both readers understand: other lines announce nothing to the other reader either (or are its version number); no blank lines inside matrices; short first and
last lines; numbers in the common notation; at least two coefficients in each row of costs -/
def MjPart.Both : MjPart → Prop
  | .other line => ∃ b : Block, b.Ok ∧ b.lines = [line] ∧ ∀ p, b.stores = some p → p.1 = "version"
  | .base eq n k _ => Junk eq ∧ BothOk n k
  | .bus head rows close => none ∉ rows ∧ head.length < 13 ∧ close.length < 12 ∧ ∀ r, some r ∈ rows → RowBoth r.nums r.semis
  | .gen head rows close => none ∉ rows ∧ head.length < 21 ∧ close.length < 20 ∧ ∀ r, some r ∈ rows → RowBoth r.nums r.semis
  | .branch head rows close => none ∉ rows ∧ head.length < 13 ∧ close.length < 12 ∧ ∀ r, some r ∈ rows → RowBoth r.nums r.semis
  | .gencost head rows close => none ∉ rows ∧ head.length < 6 ∧ close.length < 5 ∧ ∀ r, some r ∈ rows → RowBoth r.nums r.semis ∧ 6 ≤ r.nums.length

theorem matrix_both (name : String) (cols : Nat) (hn : (name, cols) ∈ [("bus", 13), ("gen", 21), ("branch", 13), ("gencost", 6)]) (head close : List Tok)
    (rows : List (Option MjLine)) (h1 : none ∉ rows) (h2 : head.length < cols) (h3 : close.length + 1 < cols)
    (h4 : ∀ r, some r ∈ rows → (∀ n ∈ r.nums, n.Valid) ∧ RowBoth r.nums r.semis ∧ cols ≤ r.nums.length) :
    ∃ b : Block, b.Ok ∧ b.lines = matrixLines ("mpc." ++ name) head rows close ∧ b.stores = some (name, .mat ((rowValues rows).map (List.take cols))) := by
  obtain ⟨rs, rfl⟩ : ∃ rs : List MjLine, rows = rs.map some := by
    clear h4
    induction rows with
    | nil => exact ⟨[], rfl⟩
    | cons r rows ih =>
      obtain ⟨rs, hrs⟩ := ih (fun h => h1 (List.mem_cons_of_mem _ h))
      cases r with
      | none => exact absurd (List.mem_cons_self ..) h1
      | some r => exact ⟨r :: rs, by rw [hrs]; rfl⟩
  have h4' : ∀ r ∈ rs, (∀ n ∈ r.nums, n.Valid) ∧ RowBoth r.nums r.semis ∧ cols ≤ r.nums.length := fun r hr => h4 r (List.mem_map.2 ⟨r, hr, rfl⟩)
  refine ⟨.matrix name head (rs.map (fun r => ((lineNumerals r.nums r.semis).take cols, ((lineNumerals r.nums r.semis).drop cols).map Numeral.text ++ r.tail)))
    ("];".toList :: close), ?_, ?_, ?_⟩
  · refine Block.Ok.matrix name cols head _ _ hn h2 ?_ (by simpa using h3)
    intro p hp
    obtain ⟨r, hr, rfl⟩ := List.mem_map.1 hp
    obtain ⟨a, b, c⟩ := h4' r hr
    obtain ⟨e1, _, e3⟩ := lineNumerals_spec r.nums r.semis a b
    refine ⟨?_, fun n hn => e3 n (List.mem_of_mem_take hn)⟩
    have := congrArg List.length e1
    rw [List.length_map, withSemis_length, List.length_map] at this
    rw [List.length_take, this]
    omega
  · show (nameTok name :: head) :: _ = ((("mpc." ++ name).toList) :: head) :: _
    unfold nameTok
    congr 1
    rw [List.map_map, List.map_map]
    congr 1
    apply List.map_congr_left
    intro r hr
    obtain ⟨a, b, c⟩ := h4' r hr
    obtain ⟨e1, _, e3⟩ := lineNumerals_spec r.nums r.semis a b
    show ((lineNumerals r.nums r.semis).take cols).map Numeral.text ++ (((lineNumerals r.nums r.semis).drop cols).map Numeral.text ++ r.tail) = r.toks
    rw [← List.append_assoc, ← List.map_append, List.take_append_drop, e1]
    rfl
  · show some (name, MatVal.mat _) = _
    congr 3
    unfold rowValues
    rw [List.map_map, List.filterMap_map, List.map_filterMap]
    have : ((fun x => Option.map (List.take cols) x) ∘ fun r : Option MjLine => r.map (fun r => r.nums.map PyNum.value)) ∘ some = fun r : MjLine => some ((r.nums.map PyNum.value).take cols) := rfl
    rw [show (fun x => Option.map (List.take cols) (((fun r : Option MjLine => r.map (fun r => r.nums.map PyNum.value)) ∘ some) x)) =
      fun r : MjLine => some ((r.nums.map PyNum.value).take cols) from rfl, List.filterMap_eq_map']
    apply List.map_congr_left
    intro r hr
    obtain ⟨a, b, c⟩ := h4' r hr
    obtain ⟨_, e2, _⟩ := lineNumerals_spec r.nums r.semis a b
    show ((lineNumerals r.nums r.semis).take cols).map Numeral.value = _
    rw [List.map_take, e2]

theorem rowValues_take (v : MjVersion) (cols : Nat) (w : List Nat) (rows : List (Option MjLine)) (h : ∀ r, some r ∈ rows → RowOk v cols w r) :
    (rowValues rows).map (List.take cols) = rowValues rows := by
  conv_rhs => rw [← List.map_id (rowValues rows)]
  apply List.map_congr_left
  intro l hl
  unfold rowValues at hl
  obtain ⟨r, h1, h2⟩ := List.mem_filterMap.1 hl
  cases r with
  | none => cases h2
  | some r =>
    cases h2
    rw [id, List.take_of_length_le]
    rw [List.length_map, (h r h1).1]

theorem part_both (v : MjVersion) (p : MjPart) (hok : p.Ok v) (hb : p.Both) :
    ∃ b : Block, b.Ok ∧ b.lines = p.lines ∧ (b.stores = p.saves ∨ (p.saves = none ∧ ∃ x, b.stores = some ("version", x))) := by
  cases hok with
  | blank =>
    obtain ⟨b, h1, h2, h3⟩ := hb
    refine ⟨b, h1, h2, ?_⟩
    cases hs : b.stores with
    | none => exact .inl rfl
    | some q => exact .inr ⟨rfl, q.2, by rw [← h3 q hs]⟩
  | other t ts ht =>
    obtain ⟨b, h1, h2, h3⟩ := hb
    refine ⟨b, h1, h2, ?_⟩
    cases hs : b.stores with
    | none => exact .inl rfl
    | some q => exact .inr ⟨rfl, q.2, by rw [← h3 q hs]⟩
  | base eq n k tail hn =>
    obtain ⟨h1, h2⟩ := hb
    refine ⟨.scalar "baseMVA" [eq] (toNumeral n k) tail, .scalar _ _ _ _ (by simp) (by intro t ht; rw [List.mem_singleton.1 ht]; exact h1) (toNumeral_valid n k hn h2), ?_, .inl ?_⟩
    · show [nameTok "baseMVA" :: ([eq] ++ (toNumeral n k).text :: tail)] = _
      rw [toNumeral_text n k h2]
      rfl
    · show some ("baseMVA", MatVal.num (toNumeral n k).value) = _
      rw [toNumeral_value n k h2]
      rfl
  | bus head rows close hr =>
    obtain ⟨h1, h2, h3, h4⟩ := hb
    obtain ⟨b, b1, b2, b3⟩ := matrix_both "bus" 13 (by simp) head close rows h1 h2 (by omega) (fun r hr' => ⟨(hr r hr').2.1, h4 r hr', by rw [(hr r hr').1]⟩)
    exact ⟨b, b1, b2, .inl (by rw [b3, rowValues_take v 13 _ rows hr]; rfl)⟩
  | gen head rows close hr =>
    obtain ⟨h1, h2, h3, h4⟩ := hb
    obtain ⟨b, b1, b2, b3⟩ := matrix_both "gen" 21 (by simp) head close rows h1 h2 (by omega) (fun r hr' => ⟨(hr r hr').2.1, h4 r hr', by rw [(hr r hr').1]⟩)
    exact ⟨b, b1, b2, .inl (by rw [b3, rowValues_take v 21 _ rows hr]; rfl)⟩
  | branch head rows close hr =>
    obtain ⟨h1, h2, h3, h4⟩ := hb
    obtain ⟨b, b1, b2, b3⟩ := matrix_both "branch" 13 (by simp) head close rows h1 h2 (by omega) (fun r hr' => ⟨(hr r hr').2.1, h4 r hr', by rw [(hr r hr').1]⟩)
    exact ⟨b, b1, b2, .inl (by rw [b3, rowValues_take v 13 _ rows hr]; rfl)⟩
  | gencost head rows close hr =>
    obtain ⟨h1, h2, h3, h4⟩ := hb
    obtain ⟨b, b1, b2, b3⟩ := matrix_both "gencost" 6 (by simp) head close rows h1 h2 (by omega) (fun r hr' => ⟨(hr r hr').1, (h4 r hr').1, (h4 r hr').2⟩)
    exact ⟨b, b1, b2, .inl (by rw [b3]; rfl)⟩

/-- the values that the file states for a name, one for each part that has it -/
def statedValues (parts : List MjPart) (name : String) : List MatVal := (parts.filterMap MjPart.saves).filterMap (fun e => if e.1 = name then some e.2 else none)

/-- **C158**: a file in the layout and notation that both readers understand gives the same network with both: if it has one matrix of buses (generators, branches), the other
reader saves it as it stands and the converter has the same columns and the same number of rows; the bases are equal; and row `i` of the costs begins with the model, the
start-up and shut-down costs, the number of coefficients and the first of them. -/
theorem C158_agree_partial (v : MjVersion) (parts : List MjPart) (hok : ∀ p ∈ parts, p.Ok v) (hb : ∀ p ∈ parts, p.Both) :
    ∃ d net, buildMat (parts.flatMap MjPart.lines) = .ok d ∧ matpower2json v (parts.flatMap MjPart.lines) = .ok net ∧
      savedValue d "baseMVA" = net.base.map MatVal.num ∧
      (∀ m, statedValues parts "bus" = [.mat m] → savedValue d "bus" = some (.mat m) ∧ net.bus = columns 13 m ∧ net.noBus = m.length ∧ net.slack = slackOf m) ∧
      (∀ m, statedValues parts "gen" = [.mat m] → savedValue d "gen" = some (.mat m) ∧ net.gen = columns 21 m ∧ net.noGen = m.length) ∧
      (∀ m, statedValues parts "branch" = [.mat m] → savedValue d "branch" = some (.mat m) ∧ net.branch = columns 13 m ∧ net.noBranch = m.length) ∧
      (∀ m, statedValues parts "gencost" = [.mat m] → savedValue d "gencost" = some (.mat m) ∧ net.gencost.length = m.length ∧
        ∀ (i : Nat) (c : MjCostRow) (row : List Rat), net.gencost[i]? = some c → m[i]? = some row →
          row.take 4 = [(c.model : Rat), c.startup, c.shutdown, (c.ncost : Rat)] ∧ ∃ x, row[4]? = some x ∧ c.cost[0]? = some (.num x)) := by
  have hblocks : ∀ (l : List MjPart), (∀ p ∈ l, p.Ok v) → (∀ p ∈ l, p.Both) → ∃ blocks : List Block, (∀ b ∈ blocks, b.Ok) ∧ blocks.flatMap Block.lines = l.flatMap MjPart.lines ∧
      ∀ name, name ≠ "version" → ((blocks.filterMap Block.stores).filter (fun e => e.1 = name)).map (·.2) = statedValues l name := by
    intro l
    induction l with
    | nil =>
      intro _ _
      exact ⟨[], by simp, rfl, fun _ _ => rfl⟩
    | cons p l ih =>
      intro h1 h2
      obtain ⟨bs, b1, b2, b3⟩ := ih (fun q hq => h1 q (List.mem_cons_of_mem _ hq)) (fun q hq => h2 q (List.mem_cons_of_mem _ hq))
      obtain ⟨b, c1, c2, c3⟩ := part_both v p (h1 p (List.mem_cons_self ..)) (h2 p (List.mem_cons_self ..))
      refine ⟨b :: bs, ?_, ?_, ?_⟩
      · intro x hx
        rcases List.mem_cons.1 hx with rfl | hx
        · exact c1
        · exact b1 x hx
      · rw [List.flatMap_cons, List.flatMap_cons, c2, b2]
      · intro name hn
        have h := b3 name hn
        unfold statedValues at h ⊢
        rcases c3 with c3 | ⟨c3, x, c4⟩
        · rw [List.filterMap_cons, List.filterMap_cons, c3]
          cases hs : p.saves with
          | none => exact h
          | some e =>
            simp only
            rw [List.filter_cons, List.filterMap_cons]
            by_cases he : e.1 = name
            · simp only [he, decide_true, if_true, List.map_cons, h]
            · simp only [he, decide_false, Bool.false_eq_true, if_false, h]
        · rw [List.filterMap_cons, List.filterMap_cons, c3, c4]
          simp only
          rw [List.filter_cons]
          have he : ¬ "version" = name := fun h0 => hn h0.symm
          simp only [he, decide_false, Bool.false_eq_true, if_false, h]
  obtain ⟨blocks, b1, b2, b3⟩ := hblocks parts hok hb
  obtain ⟨d, d1, d2⟩ := C70_file_round_trip blocks b1
  rw [b2] at d1
  obtain ⟨net, n1, n2, n3, n4, n5, n6, n7, n8, n9, n10, _, _⟩ := C157_file_partial v parts hok
  have hval : ∀ name, name ≠ "version" → savedValue d name = (statedValues parts name).getLast? := by
    intro name hn
    rw [d2, ← b3 name hn, List.getLast?_map]
    rfl
  have hbase : statedValues parts "baseMVA" = (parts.filterMap MjPart.baseOf).map MatVal.num := by
    unfold statedValues
    clear hok hb b2 b3 d1 n1 n2 n3 n4 n5 n6 n7 n8 n9 n10 hval
    induction parts with
    | nil => rfl
    | cons p l ih => cases p <;> simp [List.filterMap_cons, MjPart.saves, MjPart.baseOf, ih]
  have hbus : ∀ m, statedValues parts "bus" = [.mat m] → parts.flatMap MjPart.busRows = m := by
    have : ∀ l : List MjPart, statedValues l "bus" = (l.filterMap (fun p => match p with
        | .bus _ rows _ => some (rowValues rows)
        | _ => none)).map MatVal.mat ∧ l.flatMap MjPart.busRows = (l.filterMap (fun p => match p with
        | .bus _ rows _ => some (rowValues rows)
        | _ => none)).flatten := by
      intro l
      unfold statedValues
      induction l with
      | nil => exact ⟨rfl, rfl⟩
      | cons p l ih =>
        obtain ⟨i1, i2⟩ := ih
        cases p <;> simp [List.filterMap_cons, MjPart.saves, MjPart.busRows, i1, i2]
    intro m hm
    rw [(this parts).1] at hm
    obtain ⟨x, hx⟩ : ∃ x, parts.filterMap (fun p => match p with
        | .bus _ rows _ => some (rowValues rows)
        | _ => none) = [x] := by
      rw [← List.length_eq_one_iff, ← List.length_map (f := MatVal.mat), hm]
      rfl
    rw [(this parts).2, hx]
    rw [hx] at hm
    simpa using hm
  have hgen : ∀ m, statedValues parts "gen" = [.mat m] → parts.flatMap MjPart.genRows = m := by
    have : ∀ l : List MjPart, statedValues l "gen" = (l.filterMap (fun p => match p with
        | .gen _ rows _ => some (rowValues rows)
        | _ => none)).map MatVal.mat ∧ l.flatMap MjPart.genRows = (l.filterMap (fun p => match p with
        | .gen _ rows _ => some (rowValues rows)
        | _ => none)).flatten := by
      intro l
      unfold statedValues
      induction l with
      | nil => exact ⟨rfl, rfl⟩
      | cons p l ih =>
        obtain ⟨i1, i2⟩ := ih
        cases p <;> simp [List.filterMap_cons, MjPart.saves, MjPart.genRows, i1, i2]
    intro m hm
    rw [(this parts).1] at hm
    obtain ⟨x, hx⟩ : ∃ x, parts.filterMap (fun p => match p with
        | .gen _ rows _ => some (rowValues rows)
        | _ => none) = [x] := by
      rw [← List.length_eq_one_iff, ← List.length_map (f := MatVal.mat), hm]
      rfl
    rw [(this parts).2, hx]
    rw [hx] at hm
    simpa using hm
  have hbranch : ∀ m, statedValues parts "branch" = [.mat m] → parts.flatMap MjPart.branchRows = m := by
    have : ∀ l : List MjPart, statedValues l "branch" = (l.filterMap (fun p => match p with
        | .branch _ rows _ => some (rowValues rows)
        | _ => none)).map MatVal.mat ∧ l.flatMap MjPart.branchRows = (l.filterMap (fun p => match p with
        | .branch _ rows _ => some (rowValues rows)
        | _ => none)).flatten := by
      intro l
      unfold statedValues
      induction l with
      | nil => exact ⟨rfl, rfl⟩
      | cons p l ih =>
        obtain ⟨i1, i2⟩ := ih
        cases p <;> simp [List.filterMap_cons, MjPart.saves, MjPart.branchRows, i1, i2]
    intro m hm
    rw [(this parts).1] at hm
    obtain ⟨x, hx⟩ : ∃ x, parts.filterMap (fun p => match p with
        | .branch _ rows _ => some (rowValues rows)
        | _ => none) = [x] := by
      rw [← List.length_eq_one_iff, ← List.length_map (f := MatVal.mat), hm]
      rfl
    rw [(this parts).2, hx]
    rw [hx] at hm
    simpa using hm
  have hcost : ∀ m, statedValues parts "gencost" = [.mat m] → m = (parts.flatMap MjPart.costRows).map (fun r => (r.nums.map PyNum.value).take 6) := by
    have : ∀ l : List MjPart, statedValues l "gencost" = (l.filterMap (fun p => match p with
        | .gencost _ rows _ => some ((rowValues rows).map (List.take 6))
        | _ => none)).map MatVal.mat ∧ (l.flatMap MjPart.costRows).map (fun r => (r.nums.map PyNum.value).take 6) = (l.filterMap (fun p => match p with
        | .gencost _ rows _ => some ((rowValues rows).map (List.take 6))
        | _ => none)).flatten := by
      intro l
      unfold statedValues
      induction l with
      | nil => exact ⟨rfl, rfl⟩
      | cons p l ih =>
        obtain ⟨i1, i2⟩ := ih
        cases p with
        | gencost head rows close =>
          refine ⟨by simp [MjPart.saves, i1], ?_⟩
          rw [List.flatMap_cons, List.map_append, i2, List.filterMap_cons]
          simp only [List.flatten_cons]
          congr 1
          show ((rows.filterMap id).map _) = _
          unfold rowValues
          rw [List.map_filterMap, List.map_filterMap]
          congr 1
          funext x
          cases x <;> rfl
        | _ => simp [List.filterMap_cons, MjPart.saves, MjPart.costRows, i1, i2]
    intro m hm
    rw [(this parts).1] at hm
    obtain ⟨x, hx⟩ : ∃ x, parts.filterMap (fun p => match p with
        | .gencost _ rows _ => some ((rowValues rows).map (List.take 6))
        | _ => none) = [x] := by
      rw [← List.length_eq_one_iff, ← List.length_map (f := MatVal.mat), hm]
      rfl
    rw [(this parts).2, hx]
    rw [hx] at hm
    simpa using hm.symm
  have hcr : ∀ r ∈ parts.flatMap MjPart.costRows, CostRowOk v r ∧ 6 ≤ r.nums.length := by
    intro r hr
    obtain ⟨p, hp, hr⟩ := List.mem_flatMap.1 hr
    have h1 := hok p hp
    have h2 := hb p hp
    cases p with
    | gencost head rows close =>
      obtain ⟨q, hq, he⟩ := List.mem_filterMap.1 hr
      rw [id] at he
      rw [he] at hq
      cases h1 with
      | gencost _ _ _ h1 => exact ⟨h1 r hq, (h2.2.2.2 r hq).2⟩
    | _ => cases hr
  refine ⟨d, net, d1, n1, ?_, ?_, ?_, ?_, ?_⟩
  · rw [hval _ (by decide), hbase, List.getLast?_map, n2]
  · intro m hm
    have := hbus m hm
    exact ⟨by rw [hval _ (by decide), hm]; rfl, by rw [n3, this], by rw [n4, this], by rw [n9, this]⟩
  · intro m hm
    have := hgen m hm
    exact ⟨by rw [hval _ (by decide), hm]; rfl, by rw [n5, this], by rw [n6, this]⟩
  · intro m hm
    have := hbranch m hm
    exact ⟨by rw [hval _ (by decide), hm]; rfl, by rw [n7, this], by rw [n8, this]⟩
  · intro m hm
    have hm' := hcost m hm
    refine ⟨by rw [hval _ (by decide), hm]; rfl, by rw [n10, hm', List.length_map, List.length_map], ?_⟩
    intro i c row hc hrow
    rw [n10, List.getElem?_map, Option.map_eq_some_iff] at hc
    rw [hm', List.getElem?_map, Option.map_eq_some_iff] at hrow
    obtain ⟨r, r1, rfl⟩ := hc
    obtain ⟨r', r2, rfl⟩ := hrow
    rw [r1] at r2
    cases r2
    obtain ⟨⟨hv, h4, hm0, hn3, hl, hs⟩, h6⟩ := hcr r (List.mem_of_getElem? r1)
    match hnums : r.nums, h6 with
    | a0 :: a1 :: a2 :: a3 :: a4 :: a5 :: as, _ =>
      have p0 := hm0 a0 (by rw [hnums]; rfl)
      obtain ⟨_, p3⟩ := hn3 a3 (by rw [hnums]; rfl)
      obtain ⟨z, _, hz⟩ := plain_int a0 (hv a0 (by rw [hnums]; simp)) p0
      unfold costOf
      rw [hnums] at p3 ⊢
      refine ⟨?_, a4.value, rfl, ?_⟩
      · simp only [List.map_cons, List.take_succ_cons, List.take_zero, List.getElem?_cons_zero, List.getElem?_cons_succ, Option.map_some, Option.getD_some, hz,
          Rat.floor_intCast, p3]
        push_cast
        rfl
      · rw [List.getElem?_map, List.getElem?_range (by simp only [List.length_cons]; omega)]
        simp only [Option.map_some, List.getElem?_cons_succ, Option.some.injEq, Nat.add_zero, List.getElem?_cons_zero]
        rw [if_neg (by simp only [List.length_cons]; omega)]

/-- a numeral written with digits only -/
def pn (ds : List (Fin 10)) : PyNum := { int := ds }

theorem pn_valid (ds : List (Fin 10)) (h : ds ≠ []) : (pn ds).Valid := ⟨by simpa [pn] using h, fun _ => rfl, fun _ _ _ h => by cases h⟩

/-- a small file: version, base and two buses -/
def mjEx : List MjPart :=
  [.other (toks ["%", "two", "buses"]), .other (toks ["mpc.version", "=", "'2';"]), .base "=".toList (pn [1, 0, 0]) 1 [], .other [],
   .bus (toks ["=", "["]) [some ⟨[pn [1], pn [3], { int := [2], point := true, frac := [5] }, pn [1], pn [0], pn [0], pn [1], pn [1], pn [0], pn [1, 1], pn [1],
       { int := [1, 1], exp := some (false, some true, [1]) }, { int := [0], point := true, frac := [9] }], 1, toks ["%", "slack"]⟩,
     some ⟨[pn [2], pn [1], { sign := some true, int := [4] }, pn [1], pn [0], pn [0], pn [1], pn [1], pn [0], pn [1, 1], pn [1], { int := [1], point := true, frac := [1] },
       { int := [0], point := true, frac := [9] }], 1, []⟩] [],
   .gencost (toks ["=", "["]) [some ⟨[pn [2], pn [0], pn [0], pn [3], { int := [0], point := true, frac := [1] }, pn [5], pn [7]], 1, []⟩] []]

theorem C158_witness :
    (matpower2json .attest (mjEx.flatMap MjPart.lines)).toOption.map (fun n => (n.base, n.noBus, n.slack, n.bus.take 3)) =
      some (some 100, 2, some 1, [[1, 2], [3, 1], [5 / 2, -4]]) ∧
    (matpower2json .attest (mjEx.flatMap MjPart.lines)).toOption.map (fun n => n.gencost) = some [⟨2, 0, 0, 3, [.num (1 / 10), .num 5, .num 7]⟩] ∧
    ((matpower2json .engine (mjEx.flatMap MjPart.lines)).toOption.map (fun n => n.gencost)) = some [⟨2, 0, 0, 3, [.num (1 / 10), .num 5, .text "7".toList]⟩] ∧
    (buildMat (mjEx.flatMap MjPart.lines)).toOption.bind (fun d => savedValue d "gencost") = some (.mat [[2, 0, 0, 3, 1 / 10, 5]]) ∧
    statedValues mjEx "gencost" = [.mat [[2, 0, 0, 3, 1 / 10, 5]]] := by
  refine ⟨?_, ?_, ?_, ?_, ?_⟩ <;> decide +kernel

theorem mjEx_ok (v : MjVersion) : (∀ p ∈ mjEx, p.Ok v) ∧ ∀ p ∈ mjEx, p.Both := by
  have frac : ∀ (s : Option Bool) (i f : List (Fin 10)) (e : Option (Bool × Option Bool × List (Fin 10))), i ≠ [] → (∀ c s k, e = some (c, s, k) → k ≠ []) →
      (PyNum.mk s i true f e).Valid := fun s i f e h he => ⟨by simp [h], by simp, he⟩
  have neg : ({ sign := some true, int := [4] } : PyNum).Valid := ⟨by decide, fun _ => rfl, by simp⟩
  have exp : ({ int := [1, 1], exp := some (false, some true, [1]) } : PyNum).Valid := ⟨by decide, fun _ => rfl, fun c s k h => by cases h; decide⟩
  have whole : ∀ ds : List (Fin 10), WholeOk v (pn ds) := by
    intro ds
    cases v
    · exact ⟨(numberOf ds : Int), by simp [pn, PyNum.value, PyNum.signValue, PyNum.power, numberOf]⟩
    · exact ⟨rfl, rfl⟩
    · exact ⟨rfl, rfl⟩
  have both : ∀ ds k, BothOk (pn ds) k := fun ds k c s k' h => by cases h
  have fboth : ∀ (s : Option Bool) (i f : List (Fin 10)) (b : Bool) (k : Nat), BothOk (PyNum.mk s i b f none) k := fun s i f b k c s' k' h => by cases h
  constructor
  · intro p hp
    simp only [mjEx, List.mem_cons, List.not_mem_nil, or_false] at hp
    rcases hp with rfl | rfl | rfl | rfl | rfl | rfl
    · exact .other _ _ (by decide)
    · exact .other _ _ (by decide)
    · exact .base _ _ _ _ (pn_valid _ (by decide))
    · exact .blank
    · refine .bus _ _ _ ?_
      intro r hr
      simp only [List.mem_cons, List.not_mem_nil, or_false, Option.some.injEq] at hr
      rcases hr with rfl | rfl
      · refine ⟨rfl, ?_, ?_⟩
        · intro n hn
          simp only [List.mem_cons, List.not_mem_nil, or_false] at hn
          rcases hn with rfl | rfl | rfl | rfl | rfl | rfl | rfl | rfl | rfl | rfl | rfl | rfl | rfl <;>
            first | exact pn_valid _ (by decide) | exact frac _ _ _ _ (by decide) (by simp) | exact exp
        · intro j hj n hn
          simp only [List.mem_cons, List.not_mem_nil, or_false] at hj
          rcases hj with rfl | rfl | rfl | rfl <;> (cases hn; exact whole _)
      · refine ⟨rfl, ?_, ?_⟩
        · intro n hn
          simp only [List.mem_cons, List.not_mem_nil, or_false] at hn
          rcases hn with rfl | rfl | rfl | rfl | rfl | rfl | rfl | rfl | rfl | rfl | rfl | rfl | rfl <;>
            first | exact pn_valid _ (by decide) | exact frac _ _ _ _ (by decide) (by simp) | exact neg
        · intro j hj n hn
          simp only [List.mem_cons, List.not_mem_nil, or_false] at hj
          rcases hj with rfl | rfl | rfl | rfl <;> (cases hn; exact whole _)
    · refine .gencost _ _ _ ?_
      intro r hr
      simp only [List.mem_cons, List.not_mem_nil, or_false, Option.some.injEq] at hr
      subst hr
      refine ⟨?_, by simp, ?_, ?_, ?_, by simp⟩
      · intro n hn
        simp only [List.mem_cons, List.not_mem_nil, or_false] at hn
        rcases hn with rfl | rfl | rfl | rfl | rfl | rfl | rfl <;>
          first | exact pn_valid _ (by decide) | exact frac _ _ _ _ (by decide) (by simp)
      · intro n hn
        cases hn
        exact ⟨rfl, rfl⟩
      · intro n hn
        cases hn
        exact ⟨⟨rfl, rfl⟩, by decide +kernel⟩
      · intro _ _ n hn
        cases hn
        exact ⟨rfl, rfl⟩
  · intro p hp
    simp only [mjEx, List.mem_cons, List.not_mem_nil, or_false] at hp
    rcases hp with rfl | rfl | rfl | rfl | rfl | rfl
    · exact ⟨.other (toks ["%", "two", "buses"]), .other _ _ (by decide), rfl, fun p hp => by cases hp⟩
    · exact ⟨.scalar "version" (toks ["="]) { lead := ['\''], int := [2], trail := ['\'', ';'] } [], .scalar _ _ _ _ (by decide) (by decide)
        ⟨by decide, fun _ => rfl, by decide, by decide, by decide, by decide, fun p k h => by cases h⟩, by decide, fun p hp => by cases hp; rfl⟩
    · exact ⟨by decide, both _ _⟩
    · exact ⟨.other [], .blank, rfl, fun p hp => by cases hp⟩
    · refine ⟨by simp, by decide, by decide, ?_⟩
      intro r hr
      simp only [List.mem_cons, List.not_mem_nil, or_false, Option.some.injEq] at hr
      rcases hr with rfl | rfl
      · refine ⟨both _ _, both _ _, fboth _ _ _ _ _, both _ _, both _ _, both _ _, both _ _, both _ _, both _ _, both _ _, both _ _, ?_, fboth _ _ _ _ _⟩
        intro c s k h
        cases h
        exact ⟨rfl, by decide, rfl⟩
      · exact ⟨both _ _, both _ _, fboth _ _ _ _ _, both _ _, both _ _, both _ _, both _ _, both _ _, both _ _, both _ _, both _ _, fboth _ _ _ _ _, fboth _ _ _ _ _⟩
    · refine ⟨by simp, by decide, by decide, ?_⟩
      intro r hr
      simp only [List.mem_cons, List.not_mem_nil, or_false, Option.some.injEq] at hr
      subst hr
      exact ⟨⟨both _ _, both _ _, both _ _, both _ _, fboth _ _ _ _ _, both _ _, both _ _⟩, by decide⟩

/-- **C158 violated**: outside that notation the two readers of the package can read different numbers from the same file, both without an exception: a base of `1E2` is 100 MVA
for the converter and 12 MVA for the other reader; and of two bus matrices the other reader keeps the last one while the converter joins them. -/
theorem C158_violated :
    ((matpower2json .attest [toks ["mpc.baseMVA", "=", "1E2;"]]).toOption.map (fun n => n.base) = some (some 100) ∧
      (buildMat [toks ["mpc.baseMVA", "=", "1E2;"]]).toOption.bind (fun d => savedValue d "baseMVA") = some (.num 12)) ∧
    ∀ (v : MjVersion) (h1 h2 c1 c2 : List Tok) (r1 r2 : MjLine), RowOk v 13 [0, 1, 6, 10] r1 → RowOk v 13 [0, 1, 6, 10] r2 → RowBoth r1.nums r1.semis → RowBoth r2.nums r2.semis →
      h1.length < 13 → h2.length < 13 → c1.length < 12 → c2.length < 12 →
      ∃ d net, buildMat ([MjPart.bus h1 [some r1] c1, .bus h2 [some r2] c2].flatMap MjPart.lines) = .ok d ∧
        matpower2json v ([MjPart.bus h1 [some r1] c1, .bus h2 [some r2] c2].flatMap MjPart.lines) = .ok net ∧
        savedValue d "bus" = some (.mat [r2.nums.map PyNum.value]) ∧ net.noBus = 2 := by
  refine ⟨⟨by decide +kernel, by decide +kernel⟩, ?_⟩
  intro v h1 h2 c1 c2 r1 r2 ok1 ok2 b1 b2 l1 l2 l3 l4
  have hok : ∀ p ∈ [MjPart.bus h1 [some r1] c1, .bus h2 [some r2] c2], p.Ok v := by
    intro p hp
    simp only [List.mem_cons, List.not_mem_nil, or_false] at hp
    rcases hp with rfl | rfl
    · exact .bus _ _ _ (fun r hr => by rw [List.mem_singleton, Option.some.injEq] at hr; rw [hr]; exact ok1)
    · exact .bus _ _ _ (fun r hr => by rw [List.mem_singleton, Option.some.injEq] at hr; rw [hr]; exact ok2)
  obtain ⟨net, n1, _, _, n4, _⟩ := C157_file_partial v _ hok
  obtain ⟨k1, e1, f1, g1⟩ := part_both v _ (hok _ (List.mem_cons_self ..)) ⟨by simp, l1, l3, fun r hr => by rw [List.mem_singleton, Option.some.injEq] at hr; rw [hr]; exact b1⟩
  obtain ⟨k2, e2, f2, g2⟩ := part_both v _ (hok _ (List.mem_cons_of_mem _ (List.mem_cons_self ..)))
    ⟨by simp, l2, l4, fun r hr => by rw [List.mem_singleton, Option.some.injEq] at hr; rw [hr]; exact b2⟩
  obtain ⟨d, d1, d2⟩ := C70_file_round_trip [k1, k2] (by
    intro b hb
    simp only [List.mem_cons, List.not_mem_nil, or_false] at hb
    rcases hb with rfl | rfl
    · exact e1
    · exact e2)
  refine ⟨d, net, ?_, n1, ?_, by rw [n4]; rfl⟩
  · rw [← d1]
    simp only [List.flatMap_cons, List.flatMap_nil, f1, f2]
  · rw [d2]
    have s1 : k1.stores = some ("bus", .mat [r1.nums.map PyNum.value]) := by
      rcases g1 with g | g
      · exact g
      · cases g.1
    have s2 : k2.stores = some ("bus", .mat [r2.nums.map PyNum.value]) := by
      rcases g2 with g | g
      · exact g
      · cases g.1
    unfold fileValue
    simp [s1, s2]

/-! ## C159 -/

theorem mjLoop_silent (v : MjVersion) (lines : List (List Tok)) (s : MjState) (hi : s.Idle)
    (h : ∀ line ∈ lines, ∀ t, line.head? = some t → t ∉ ["mpc.baseMVA", "mpc.bus", "mpc.gen", "mpc.branch", "mpc.gencost", "mpc.demandP", "mpc.demandQ"].map String.toList) :
    mjLoop v lines s = .ok s := by
  induction lines with
  | nil =>
    rw [mjLoop.eq_def]
  | cons line lines ih =>
    have hh : mjHead v line = .none := by
      cases line with
      | nil => rfl
      | cons t ts => exact head_other v t ts (h _ (List.mem_cons_self ..) t rfl)
    rw [mjLoop_none v line lines s s hh (body_idle v line s hi)]
    exact ih (fun l hl => h l (List.mem_cons_of_mem _ hl))

/-- **C159 violated**: a name that is written without a space before the sign of equality (`mpc.bus=[`, as the other reader and MATPOWER allow) is not recognised: the file is read
without an exception and the network has no base, no buses, no branches and no generators, whatever rows follow. -/
theorem C159_glued_violated (v : MjVersion) (lines : List (List Tok))
    (h : ∀ line ∈ lines, ∀ t, line.head? = some t → t ∉ ["mpc.baseMVA", "mpc.bus", "mpc.gen", "mpc.branch", "mpc.gencost", "mpc.demandP", "mpc.demandQ"].map String.toList) :
    ∃ net, matpower2json v lines = .ok net ∧ net.base = none ∧ net.noBus = 0 ∧ net.noBranch = 0 ∧ net.noGen = 0 ∧ net.slack = none ∧ net.gencost = [] := by
  refine ⟨_, by unfold matpower2json; rw [mjLoop_silent v lines {} ⟨rfl, rfl, rfl, rfl, rfl, rfl⟩ h]; rfl, rfl, ?_, ?_, ?_, rfl, rfl⟩ <;> decide

example : ∀ line ∈ [toks ["mpc.baseMVA=100;"], toks ["mpc.bus=["], toks ["1", "3", "0"], toks ["];"]], ∀ t, line.head? = some t →
    t ∉ ["mpc.baseMVA", "mpc.bus", "mpc.gen", "mpc.branch", "mpc.gencost", "mpc.demandP", "mpc.demandQ"].map String.toList := by
  intro line hl t ht
  simp only [List.mem_cons, List.not_mem_nil, or_false] at hl
  rcases hl with rfl | rfl | rfl | rfl <;> (cases ht; decide)

/-- **C159 violated**: in the version in use a number in a whole-number column (the number and type of a bus, the ends of a branch, the status) that is not whole is cut off
without a word: `2.9` becomes 2. -/
theorem C159_truncated_violated (n : PyNum) (h : n.Valid) : mjInt .attest n.text = .ok (pyTrunc n.value) ∧
    (∀ z : Int, 0 ≤ z → (z : Rat) ≤ n.value → n.value < z + 1 → mjInt .attest n.text = .ok z) := by
  have h0 : mjInt .attest n.text = .ok (pyTrunc n.value) := by
    unfold mjInt
    rw [C156_numeral n h]
    rfl
  refine ⟨h0, ?_⟩
  intro z hz h1 h2
  rw [h0]
  unfold pyTrunc
  have : (0 : Rat) ≤ n.value := le_trans (by exact_mod_cast hz) h1
  rw [if_pos this]
  congr 1
  apply le_antisymm
  · have h3 : ((n.value.floor : Int) : Rat) ≤ n.value := Rat.floor_le _
    have : ((n.value.floor : Int) : Rat) < ((z + 1 : Int) : Rat) := by push_cast; exact lt_of_le_of_lt h3 h2
    have := Int.cast_lt.1 this
    omega
  · exact Rat.le_floor_iff.2 h1

/-- **C159 violated**: numbers on the line with the name of a matrix are ignored: the same network results whatever stands there. -/
theorem C159_first_line_violated (v : MjVersion) (h1 h2 close : List Tok) (rows : List (Option MjLine)) (hr : ∀ r, some r ∈ rows → RowOk v 13 [0, 1, 6, 10] r) :
    ∃ net1 net2, matpower2json v (MjPart.bus h1 rows close).lines = .ok net1 ∧ matpower2json v (MjPart.bus h2 rows close).lines = .ok net2 ∧ net1.bus = net2.bus ∧
      net1.noBus = net2.noBus := by
  obtain ⟨n1, a1, _, a3, a4, _⟩ := C157_file_partial v [.bus h1 rows close] (by intro p hp; rw [List.mem_singleton.1 hp]; exact .bus _ _ _ hr)
  obtain ⟨n2, b1, _, b3, b4, _⟩ := C157_file_partial v [.bus h2 rows close] (by intro p hp; rw [List.mem_singleton.1 hp]; exact .bus _ _ _ hr)
  rw [List.flatMap_singleton] at a1 b1
  exact ⟨n1, n2, a1, b1, by rw [a3, b3]; rfl, by rw [a4, b4]; rfl⟩

/-- **C159 violated**: a piecewise linear cost with `n` points has `2 n` numbers, of which the converter keeps the first `n`: whatever follows them does not matter. -/
theorem C159_piecewise_violated (v : MjVersion) (line : List Tok) (c : MjCostRow) (h : mjCostRow v line = .ok c) :
    c.cost.length = c.ncost.toNat ∧ ∀ more : List Tok, mjCostRow v (line ++ more) = .ok c := by
  unfold mjCostRow at h
  simp only [except_bind_ok] at h
  obtain ⟨t0, a0, m, b0, t1, a1, u, b1, t2, a2, d, b2, t3, a3, n, b3, cost, hc, h⟩ := h
  cases h
  have hf := (mapM_ok_iff _ _ _).1 hc
  refine ⟨by have := hf.length_eq; rw [List.length_range] at this; exact this.symm, ?_⟩
  intro more
  have tok : ∀ j t, mjTok line j = .ok t → mjTok (line ++ more) j = .ok t := by
    intro j t ht
    unfold mjTok at ht ⊢
    split at ht
    · cases ht
    · rename_i t' h'
      cases ht
      rw [List.getElem?_append_left (List.getElem?_eq_some_iff.1 h').1, h']
  have hcost : (List.range n.toNat).mapM (mjCoef v (line ++ more) n) = .ok cost := by
    rw [mapM_ok_iff]
    refine hf.imp ?_
    intro x y hxy
    unfold mjCoef at hxy ⊢
    split at hxy
    · cases hxy
    · rename_i t' h'
      rw [List.getElem?_append_left (List.getElem?_eq_some_iff.1 h').1, h']
      exact hxy
  unfold mjCostRow
  simp only [tok _ _ a0, tok _ _ a1, tok _ _ a2, tok _ _ a3, b0, b1, b2, b3, hcost, bind, Except.bind]
  rfl

example : mjCostRow .attest (toks ["1", "0", "0", "3", "0", "0", "50", "400", "100", "900;"]) = .ok ⟨1, 0, 0, 3, [.num 0, .num 0, .num 50]⟩ := by decide +kernel

/-- **C157 violated**: a constant cost coefficient that is not written as a whole number is refused with ValueError by the version in use, however ordinary it is. -/
theorem C157_cost_violated (t0 t1 t2 : Tok) (m : Int) (u d : Rat) (h0 : pyInt t0 = .ok m) (h1 : pyFloatStr t1 = .ok u) (h2 : pyFloatStr t2 = .ok d) (n : PyNum)
    (hp : n.point = true ∨ n.exp ≠ none) (k : Nat) (tail : List Tok) :
    mjCostRow .attest (t0 :: t1 :: t2 :: "1".toList :: (n.text ++ List.replicate k ';') :: tail) = .error .value := by
  have hbad : pyInt n.text = .error .value := by
    cases hr : pyInt n.text with
    | error e => rw [pyInt_err _ _ hr]
    | ok z =>
      exfalso
      obtain ⟨s, ds, d1, d2, d3⟩ := (pyInt_iff _ _).1 hr
      have hch : ∀ c ∈ n.text, c = '-' ∨ c = '+' ∨ ∃ d, c = digitChar d := by
        intro c hc
        rw [d2] at hc
        rcases List.mem_append.1 hc with hc | hc
        · rcases s with _ | _ | _
          · cases hc
          · rw [show PyNum.signText (some false) = ['+'] from rfl, List.mem_singleton] at hc
            exact .inr (.inl hc)
          · rw [show PyNum.signText (some true) = ['-'] from rfl, List.mem_singleton] at hc
            exact .inl hc
        · obtain ⟨d, _, rfl⟩ := List.mem_map.1 hc
          exact .inr (.inr ⟨d, rfl⟩)
      rcases hp with hp | hp
      · have := hch '.' (by simp [PyNum.text, PyNum.mantissaText, hp])
        rcases this with h | h | ⟨d, h⟩
        · exact absurd h (by decide)
        · exact absurd h (by decide)
        · exact (digitChar_facts d).1 h.symm
      · rcases he : n.exp with _ | ⟨c, s', k'⟩
        · exact hp he
        · have := hch (if c then 'E' else 'e') (by simp [PyNum.text, he, PyNum.expText])
          rcases this with h | h | ⟨d, h⟩
          · cases c <;> exact absurd h (by decide)
          · cases c <;> exact absurd h (by decide)
          · cases c
            · exact (digitChar_facts d).2.1 h.symm
            · exact (digitChar_facts d).2.2.1 h.symm
  have h3 : pyInt "1".toList = .ok 1 := by decide
  unfold mjCostRow
  simp only [mjTok, List.getElem?_cons_zero, List.getElem?_cons_succ, h0, h1, h2, h3, bind, Except.bind]
  have : (List.range (1 : Int).toNat).mapM (mjCoef .attest (t0 :: t1 :: t2 :: "1".toList :: (n.text ++ List.replicate k ';') :: tail) 1) = .error .value := by
    rw [show (1 : Int).toNat = 1 from rfl, show List.range 1 = [0] from rfl, List.mapM_cons]
    have : mjCoef .attest (t0 :: t1 :: t2 :: "1".toList :: (n.text ++ List.replicate k ';') :: tail) 1 0 = .error .value := by
      unfold mjCoef
      simp only [List.getElem?_cons_zero, List.getElem?_cons_succ, noSemi_text, hbad]
      rfl
    rw [this]
    rfl
  rw [this]

/-- **C159** (the part that holds): inside a matrix of buses nothing that is not a number is passed over: a line whose first token is neither a number nor the closing `];` — a
comment, a lone `]` — is refused with ValueError. -/
theorem C159_bad_row_partial (v : MjVersion) (t : Tok) (ts : List Tok) (s : MjState) (hi : s.inBus = true) (hc : t ≠ mjClose)
    (h : ¬ ∃ n : PyNum, n.Valid ∧ n.text = t) : mjBody v (t :: ts) s = .error .value := by
  have hbad : mjInt v t = .error .value := by
    cases v with
    | attest =>
      unfold mjInt
      rw [C156_refused t h]
      rfl
    | optimisers =>
      cases hr : pyInt t with
      | error e => rw [show mjInt .optimisers t = pyInt t from rfl, hr, pyInt_err _ _ hr]
      | ok z =>
        obtain ⟨sg, ds, d1, d2, _⟩ := (pyInt_iff _ _).1 hr
        refine absurd ⟨⟨sg, ds, false, [], none⟩, ⟨by simpa using d1, fun _ => rfl, by simp⟩, ?_⟩ h
        rw [d2]
        simp [PyNum.text, PyNum.mantissaText, PyNum.expText]
    | engine =>
      cases hr : pyInt t with
      | error e => rw [show mjInt .engine t = pyInt t from rfl, hr, pyInt_err _ _ hr]
      | ok z =>
        obtain ⟨sg, ds, d1, d2, _⟩ := (pyInt_iff _ _).1 hr
        refine absurd ⟨⟨sg, ds, false, [], none⟩, ⟨by simpa using d1, fun _ => rfl, by simp⟩, ?_⟩ h
        rw [d2]
        simp [PyNum.text, PyNum.mantissaText, PyNum.expText]
  have hrow : mjRow v busKinds (t :: ts) = .error .value := by
    unfold mjRow
    rw [show busKinds = MjKind.int :: busKinds.tail from rfl, List.zip_cons_cons, List.mapM_cons]
    simp only [mjCell, hbad, bind, Except.bind, Except.map]
  unfold mjBody mjBus
  rw [if_neg (by simp), if_pos hi, if_neg (by rw [List.head?_cons, Option.some.injEq]; exact hc), hrow]
  rfl

example : ∃ s : MjState, s.inBus = true ∧ mjBody .attest (toks ["%", "a", "comment"]) s = .error .value ∧ mjBody .attest (toks ["]", ";"]) s = .error .value :=
  ⟨{ inBus := true }, rfl, by decide +kernel, by decide +kernel⟩

/-! ## C160 -/

/-- **C160**: the file that is read is the one named by the user: for a folder (not the root) with any name and any file name without slashes that ends in `.m`, the converter
reads `folder/name.m`. -/
theorem C160_path_partial (folder name : List Char) (hf : folder ≠ []) (hn : ∀ c ∈ name, c ≠ '/' ∧ c ≠ '\\') (hl : folder.getLast? ≠ some '/') :
    (mpcPath (folder ++ '/' :: (name ++ ".m".toList))).map (fun p => (p, mpcFile p)) = .ok ((folder, name), folder ++ '/' :: (name ++ ".m".toList)) := by
  have h0 : (folder ++ '/' :: (name ++ ".m".toList)).take ((folder ++ '/' :: (name ++ ".m".toList)).length - 2) = folder ++ '/' :: name := by
    rw [show folder ++ '/' :: (name ++ ".m".toList) = (folder ++ '/' :: name) ++ ".m".toList by simp, List.take_left']
    rw [List.length_append (bs := ".m".toList)]
    rfl
  have hfind : mpcSlash (folder ++ '/' :: name) = .ok folder.length := by
    unfold mpcSlash
    have hr : (List.range (folder ++ '/' :: name).length).reverse =
        ((List.range name.length).map (fun i => folder.length + 1 + i)).reverse ++ (folder.length :: (List.range folder.length).reverse) := by
      rw [List.length_append, List.length_cons, show folder.length + (name.length + 1) = (folder.length + 1) + name.length by omega, List.range_add, List.reverse_append,
        List.range_succ, List.reverse_append]
      rfl
    rw [hr, List.find?_append]
    have h1 : ((List.range name.length).map (fun i => folder.length + 1 + i)).reverse.find?
        (fun x => decide ((folder ++ '/' :: name)[x]? = some '\\' ∨ (folder ++ '/' :: name)[x]? = some '/')) = none := by
      rw [List.find?_eq_none]
      intro x hx
      rw [List.mem_reverse, List.mem_map] at hx
      obtain ⟨i, hi, rfl⟩ := hx
      rw [List.mem_range] at hi
      have : (folder ++ '/' :: name)[folder.length + 1 + i]? = some name[i] := by
        rw [List.getElem?_append_right (by omega), show folder.length + 1 + i - folder.length = i + 1 by omega, List.getElem?_cons_succ, List.getElem?_eq_getElem hi]
      rw [this]
      have := hn name[i] (List.getElem_mem hi)
      simp [this.1, this.2]
    rw [h1, Option.none_or, List.find?_cons_of_pos]
    simp
  unfold mpcPath
  dsimp only
  rw [h0, hfind]
  have ht : (folder ++ '/' :: name).take folder.length = folder := List.take_left' rfl
  have hd : (folder ++ '/' :: name).drop (folder.length + 1) = name := by
    rw [show folder ++ '/' :: name = (folder ++ ['/']) ++ name by simp, List.drop_left']
    simp
  show Except.ok (((folder ++ '/' :: name).take folder.length, (folder ++ '/' :: name).drop (folder.length + 1)),
    mpcFile ((folder ++ '/' :: name).take folder.length, (folder ++ '/' :: name).drop (folder.length + 1))) = _
  rw [ht, hd]
  unfold mpcFile
  rw [if_neg hf, if_neg hl]

example : (mpcPath "cases/uk/case5.m".toList).map (fun p => (p, mpcFile p)) = .ok (("cases/uk".toList, "case5".toList), "cases/uk/case5.m".toList) := by decide +kernel

/-- **C160 violated**: a file in the current folder, named without a folder, cannot be read: IndexError. -/
theorem C160_bare_violated (testCase : List Char) (h : ∀ c ∈ testCase, c ≠ '/' ∧ c ≠ '\\') : mpcPath testCase = .error .index := by
  unfold mpcPath mpcSlash
  dsimp only
  rw [List.find?_eq_none.2]
  · rfl
  · intro x hx
    rw [List.mem_reverse, List.mem_range] at hx
    have := h _ (List.mem_of_mem_take (List.getElem_mem hx))
    rw [List.getElem?_eq_getElem hx]
    simp only [Option.some.injEq, decide_eq_true_eq, not_or]
    exact ⟨this.2, this.1⟩

/-- **C160 violated**: a file in the root folder is looked for in the current folder instead. -/
theorem C160_root_violated (name : List Char) (hn : ∀ c ∈ name, c ≠ '/' ∧ c ≠ '\\') :
    (mpcPath ('/' :: (name ++ ".m".toList))).map mpcFile = .ok (name ++ ".m".toList) := by
  have h0 : ('/' :: (name ++ ".m".toList)).take (('/' :: (name ++ ".m".toList)).length - 2) = '/' :: name := by
    rw [show '/' :: (name ++ ".m".toList) = ('/' :: name) ++ ".m".toList by simp, List.take_left']
    rw [List.length_append]
    rfl
  have hfind : mpcSlash ('/' :: name) = .ok 0 := by
    unfold mpcSlash
    have hr : (List.range ('/' :: name).length).reverse = ((List.range name.length).map (fun i => 1 + i)).reverse ++ [0] := by
      rw [List.length_cons, show name.length + 1 = 1 + name.length by omega, List.range_add, List.reverse_append]
      rfl
    rw [hr, List.find?_append]
    have h1 : ((List.range name.length).map (fun i => 1 + i)).reverse.find? (fun x => decide (('/' :: name)[x]? = some '\\' ∨ ('/' :: name)[x]? = some '/')) = none := by
      rw [List.find?_eq_none]
      intro x hx
      rw [List.mem_reverse, List.mem_map] at hx
      obtain ⟨i, hi, rfl⟩ := hx
      rw [List.mem_range] at hi
      have : ('/' :: name)[1 + i]? = some name[i] := by
        rw [show 1 + i = i + 1 by omega, List.getElem?_cons_succ, List.getElem?_eq_getElem hi]
      rw [this]
      have := hn name[i] (List.getElem_mem hi)
      simp [this.1, this.2]
    rw [h1]
    rfl
  unfold mpcPath
  dsimp only
  rw [h0, hfind]
  rfl

end Pyensys
