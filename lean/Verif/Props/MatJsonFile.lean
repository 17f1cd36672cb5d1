import Verif.Props.MatJson
import Verif.Props.AttestOptions
import Verif.Props.Screening

/-!
# C157: files read by the JSON converter

The small specification: a case file as a list of parts, and the network it describes.
-/

namespace Pyensys

/-- a row of a matrix: its numbers, the semicolons glued to the last one, and whatever else stands on the line -/
structure MjLine where
  nums : List PyNum
  semis : Nat := 0
  tail : List Tok := []
  deriving DecidableEq, Repr

/-- the last token of a row -/
def withSemis : List Tok → Nat → List Tok
  | [], _ => []
  | [t], k => [t ++ List.replicate k ';']
  | t :: ts, k => t :: withSemis ts k

/-- the tokens of a row -/
def MjLine.toks (r : MjLine) : List Tok := withSemis (r.nums.map PyNum.text) r.semis ++ r.tail

/-- parts of a case file. Rows of matrices may be separated by blank lines (`none`). -/
inductive MjPart
  | other (line : List Tok)
  | base (eq : Tok) (n : PyNum) (semis : Nat) (tail : List Tok)
  | bus (head : List Tok) (rows : List (Option MjLine)) (close : List Tok)
  | gen (head : List Tok) (rows : List (Option MjLine)) (close : List Tok)
  | branch (head : List Tok) (rows : List (Option MjLine)) (close : List Tok)
  | gencost (head : List Tok) (rows : List (Option MjLine)) (close : List Tok)
  deriving DecidableEq, Repr

/-- the lines of the rows of a matrix and of its end -/
def matrixLines (name : String) (head : List Tok) (rows : List (Option MjLine)) (close : List Tok) : List (List Tok) :=
  (name.toList :: head) :: (rows.map (fun r => (r.map MjLine.toks).getD []) ++ ["];".toList :: close])

/-- the lines of a part -/
def MjPart.lines : MjPart → List (List Tok)
  | .other line => [line]
  | .base eq n k tail => ["mpc.baseMVA".toList :: eq :: (n.text ++ List.replicate k ';') :: tail]
  | .bus head rows close => matrixLines "mpc.bus" head rows close
  | .gen head rows close => matrixLines "mpc.gen" head rows close
  | .branch head rows close => matrixLines "mpc.branch" head rows close
  | .gencost head rows close => matrixLines "mpc.gencost" head rows close

/-- the numbers that must be whole ones: written plainly, except that the version in use also takes any way of writing a whole number -/
def WholeOk (v : MjVersion) (n : PyNum) : Prop :=
  match v with
  | .attest => ∃ z : Int, n.value = (z : Rat)
  | _ => n.Plain

/-- rows of a matrix of `cols` columns, of which those in `whole` hold whole numbers -/
def RowOk (v : MjVersion) (cols : Nat) (whole : List Nat) (r : MjLine) : Prop :=
  r.nums.length = cols ∧ (∀ n ∈ r.nums, n.Valid) ∧ ∀ j ∈ whole, ∀ n, r.nums[j]? = some n → WholeOk v n

/-- rows of costs: model, start-up, shut-down, number of coefficients, coefficients; model and number are whole, and so is the last coefficient unless the old version reads it;
the model alone or with the costs of no more than four numbers cannot carry semicolons -/
def CostRowOk (v : MjVersion) (r : MjLine) : Prop :=
  (∀ n ∈ r.nums, n.Valid) ∧ 4 ≤ r.nums.length ∧ (∀ n, r.nums[0]? = some n → n.Plain) ∧ (∀ n, r.nums[3]? = some n → n.Plain ∧ n.value = (r.nums.length : Rat) - 4) ∧
    (5 ≤ r.nums.length → v ≠ .engine → ∀ n, r.nums[r.nums.length - 1]? = some n → n.Plain) ∧ (r.nums.length = 4 → r.semis = 0)

/-- the layout that the converter understands -/
inductive MjPart.Ok (v : MjVersion) : MjPart → Prop
  | blank : MjPart.Ok v (.other [])
  | other (t : Tok) (ts : List Tok) :
      t ∉ ["mpc.baseMVA", "mpc.bus", "mpc.gen", "mpc.branch", "mpc.gencost", "mpc.demandP", "mpc.demandQ"].map String.toList → MjPart.Ok v (.other (t :: ts))
  | base (eq : Tok) (n : PyNum) (k : Nat) (tail : List Tok) : n.Valid → MjPart.Ok v (.base eq n k tail)
  | bus (head : List Tok) (rows : List (Option MjLine)) (close : List Tok) :
      (∀ r, some r ∈ rows → RowOk v 13 [0, 1, 6, 10] r) → MjPart.Ok v (.bus head rows close)
  | gen (head : List Tok) (rows : List (Option MjLine)) (close : List Tok) :
      (∀ r, some r ∈ rows → RowOk v 21 [0, 7] r) → MjPart.Ok v (.gen head rows close)
  | branch (head : List Tok) (rows : List (Option MjLine)) (close : List Tok) :
      (∀ r, some r ∈ rows → RowOk v 13 [0, 1, 10] r) → MjPart.Ok v (.branch head rows close)
  | gencost (head : List Tok) (rows : List (Option MjLine)) (close : List Tok) :
      (∀ r, some r ∈ rows → CostRowOk v r) → MjPart.Ok v (.gencost head rows close)

/-- the numbers of the rows -/
def rowValues (rows : List (Option MjLine)) : List (List Rat) := rows.filterMap (fun r => r.map (fun r => r.nums.map PyNum.value))

/-- the numbers a part adds to the bus, generator and branch matrices and to the costs -/
def MjPart.busRows : MjPart → List (List Rat)
  | .bus _ rows _ => rowValues rows
  | _ => []
/-- see `busRows` -/
def MjPart.genRows : MjPart → List (List Rat)
  | .gen _ rows _ => rowValues rows
  | _ => []
/-- see `busRows` -/
def MjPart.branchRows : MjPart → List (List Rat)
  | .branch _ rows _ => rowValues rows
  | _ => []
/-- the rows of costs of a part -/
def MjPart.costRows : MjPart → List MjLine
  | .gencost _ rows _ => rows.filterMap id
  | _ => []
/-- the base a part states -/
def MjPart.baseOf : MjPart → Option Rat
  | .base _ n _ _ => some n.value
  | _ => none

/-- the columns of a matrix with `k` columns -/
def columns (k : Nat) (rows : List (List Rat)) : List (List Rat) := (List.range k).map (fun j => rows.map (fun r => r.getD j 0))

/-- the bus of type 3, the last one if there are several -/
def slackOf (rows : List (List Rat)) : Option Int := ((rows.filter (fun r => decide (r.getD 1 0 = 3))).getLast?).map (fun r => (r.getD 0 0).floor)

/-- the costs of a row as the converter should hold them -/
def costOf (v : MjVersion) (r : MjLine) : MjCostRow :=
  ⟨((r.nums[0]?.map PyNum.value).getD 0).floor, (r.nums[1]?.map PyNum.value).getD 0, (r.nums[2]?.map PyNum.value).getD 0, (r.nums.length : Int) - 4,
    (List.range (r.nums.length - 4)).map (fun x => match r.nums[4 + x]? with
      | none => .num 0
      | some n => if v = .engine ∧ x = r.nums.length - 5 then .text n.text else .num n.value)⟩

/-! ## Cells -/

theorem numeral_chars (n : PyNum) : ∀ c ∈ n.text, c ≠ ';' ∧ c ≠ 'm' ∧ c ≠ ']' := by
  have hs : ∀ s : Option Bool, ∀ c ∈ PyNum.signText s, c ≠ ';' ∧ c ≠ 'm' ∧ c ≠ ']' := by
    intro s c hc
    rcases s with _ | _ | _
    · cases hc
    · rw [show PyNum.signText (some false) = ['+'] from rfl, List.mem_singleton] at hc
      rw [hc]; decide
    · rw [show PyNum.signText (some true) = ['-'] from rfl, List.mem_singleton] at hc
      rw [hc]; decide
  intro c hc
  unfold PyNum.text at hc
  rcases List.mem_append.1 hc with h | h
  · exact hs _ c h
  · rcases List.mem_append.1 h with h | h
    · rcases mantissa_chars n c h with rfl | ⟨d, rfl⟩
      · decide
      · have := digitChar_facts d
        exact ⟨this.2.2.2.2.2.1, this.2.2.2.2.2.2.1, this.2.2.2.2.2.2.2.1⟩
    · rcases he : n.exp with _ | ⟨cap, s, k⟩
      · rw [he] at h
        cases h
      · rw [he] at h
        rcases List.mem_cons.1 h with h | h
        · rw [h]
          cases cap <;> decide
        · rcases List.mem_append.1 h with h | h
          · exact hs _ c h
          · obtain ⟨d, _, rfl⟩ := List.mem_map.1 h
            have := digitChar_facts d
            exact ⟨this.2.2.2.2.2.1, this.2.2.2.2.2.2.1, this.2.2.2.2.2.2.2.1⟩

theorem noSemi_text (n : PyNum) (k : Nat) : noSemi (n.text ++ List.replicate k ';') = n.text := by
  unfold noSemi
  rw [List.filter_append, List.filter_replicate_of_neg (by decide), List.append_nil, List.filter_eq_self]
  intro c hc
  exact decide_eq_true (numeral_chars n c hc).1

theorem numeral_ne (n : PyNum) (h : n.Valid) : n.text ≠ [] := by
  obtain ⟨c, r, hc, _⟩ := text_head_body n h
  unfold PyNum.text
  rw [hc]
  simp

/-- a numeral with glued semicolons announces nothing and ends no matrix -/
theorem numeral_head (n : PyNum) (h : n.Valid) (k : Nat) : ∀ t, (t.head? = some 'm' ∨ t.head? = some ']') → n.text ++ List.replicate k ';' ≠ t := by
  intro t ht h0
  obtain ⟨c, r, hc⟩ := List.exists_cons_of_ne_nil (numeral_ne n h)
  have := numeral_chars n c (by rw [hc]; exact List.mem_cons_self ..)
  rw [← h0, hc] at ht
  simp only [List.cons_append, List.head?_cons, Option.some.injEq] at ht
  rcases ht with h1 | h1
  · exact this.2.1 h1
  · exact this.2.2 h1

theorem plain_int (n : PyNum) (h : n.Valid) (hp : n.Plain) : ∃ z : Int, pyInt n.text = .ok z ∧ n.value = (z : Rat) := by
  obtain ⟨h1, h2⟩ := hp
  have hf := h.frac h1
  have hi : n.int ≠ [] := by
    have := h.digits
    rw [hf, List.append_nil] at this
    exact this
  refine ⟨_, (pyInt_iff n.text _).2 ⟨n.sign, n.int, hi, ?_, rfl⟩, ?_⟩
  · simp [PyNum.text, PyNum.mantissaText, h1, h2, PyNum.expText]
  · simp [PyNum.value, PyNum.power, h2, hf, numberOf]

theorem pyTrunc_int (z : Int) : pyTrunc (z : Rat) = z := by
  unfold pyTrunc
  split
  · exact Rat.floor_intCast z
  · rw [show (-(z : Rat)) = ((-z : Int) : Rat) by push_cast; rfl, Rat.floor_intCast]
    omega

theorem whole_value (v : MjVersion) (n : PyNum) (h : n.Valid) (hw : WholeOk v n) : ∃ z : Int, mjInt v n.text = .ok z ∧ n.value = (z : Rat) := by
  cases v with
  | attest =>
    obtain ⟨z, hz⟩ := hw
    refine ⟨z, ?_, hz⟩
    unfold mjInt
    rw [C156_numeral n h, hz]
    show Except.ok (pyTrunc (z : Rat)) = _
    rw [pyTrunc_int]
  | optimisers => exact plain_int n h hw
  | engine => exact plain_int n h hw

/-! ## Rows -/

theorem withSemis_length (l : List Tok) (k : Nat) : (withSemis l k).length = l.length := by
  induction l with
  | nil => rfl
  | cons t ts ih =>
    cases ts with
    | nil => rfl
    | cons u us =>
      show (t :: withSemis (u :: us) k).length = _
      rw [List.length_cons, ih]
      rfl

theorem withSemis_getElem? (l : List Tok) (k i : Nat) : (withSemis l k)[i]? = l[i]?.map (fun t => if i + 1 = l.length then t ++ List.replicate k ';' else t) := by
  induction l generalizing i with
  | nil => rfl
  | cons t ts ih =>
    cases ts with
    | nil =>
      cases i with
      | zero => rfl
      | succ i => simp [withSemis]
    | cons u us =>
      show (t :: withSemis (u :: us) k)[i]? = _
      cases i with
      | zero => simp
      | succ i =>
        rw [List.getElem?_cons_succ, ih, List.getElem?_cons_succ]
        congr 1
        funext x
        simp [Nat.add_right_cancel_iff]

/-- the token of column `j` of a row -/
theorem line_getElem? (r : MjLine) (j : Nat) (h : j < r.nums.length) (n : PyNum) (hn : r.nums[j]? = some n) :
    r.toks[j]? = some (n.text ++ List.replicate (if j + 1 = r.nums.length then r.semis else 0) ';') := by
  unfold MjLine.toks
  rw [List.getElem?_append_left (by rw [withSemis_length, List.length_map]; exact h), withSemis_getElem?, List.getElem?_map, hn, List.length_map]
  simp only [Option.map_some]
  split <;> simp

theorem mjRow_ok (v : MjVersion) (kinds : List MjKind) (r : MjLine) (hlen : r.nums.length = kinds.length) (hv : ∀ n ∈ r.nums, n.Valid)
    (hlast : ∀ (j : Nat) (k : MjKind), kinds[j]? = some k → (k = .last ↔ j + 1 = kinds.length))
    (hint : ∀ (j : Nat) (n : PyNum), kinds[j]? = some MjKind.int → r.nums[j]? = some n → WholeOk v n) :
    mjRow v kinds r.toks = .ok (r.nums.map PyNum.value) := by
  unfold mjRow
  rw [mapM_ok_iff, forall₂_iff_getElem?]
  refine ⟨?_, ?_⟩
  · rw [List.length_zip, List.length_map]
    have : r.nums.length ≤ r.toks.length := by
      unfold MjLine.toks
      rw [List.length_append, withSemis_length, List.length_map]
      omega
    omega
  · intro j p x hp hx
    rw [List.getElem?_zip_eq_some] at hp
    obtain ⟨k1, k2⟩ := hp
    rw [List.getElem?_map, Option.map_eq_some_iff] at hx
    obtain ⟨n, hn, rfl⟩ := hx
    have hj : j < r.nums.length := (List.getElem?_eq_some_iff.1 hn).1
    have hval := hv n (List.mem_of_getElem? hn)
    rw [line_getElem? r j hj n hn, Option.some.injEq] at k2
    obtain ⟨k, t⟩ := p
    simp only at k1 k2 ⊢
    have hl := hlast j k k1
    rw [← hlen] at hl
    rw [← k2]
    cases k with
    | int =>
      have : ¬ j + 1 = r.nums.length := fun h => by simpa using hl.2 h
      rw [if_neg this]
      obtain ⟨z, h1, h2⟩ := whole_value v n hval (hint j n k1 hn)
      simp only [mjCell, List.replicate_zero, List.append_nil, h1, h2]
      rfl
    | float =>
      have : ¬ j + 1 = r.nums.length := fun h => by simpa using hl.2 h
      rw [if_neg this]
      simp only [mjCell, List.replicate_zero, List.append_nil, C156_numeral n hval]
    | last =>
      simp only [mjCell, noSemi_text, C156_numeral n hval]

theorem mjAppend_getElem? (cs : List (List Rat)) (xs : List Rat) (h : xs.length = cs.length) (i : Nat) :
    (mjAppend cs xs)[i]? = (cs[i]?).map (fun c => c ++ [xs.getD i 0]) := by
  induction cs generalizing xs i with
  | nil =>
    cases xs with
    | nil => rfl
    | cons x xs => cases h
  | cons c cs ih =>
    cases xs with
    | nil => cases h
    | cons x xs =>
      unfold mjAppend
      cases i with
      | zero => simp
      | succ i =>
        rw [List.getElem?_cons_succ, ih xs (by simpa using h), List.getElem?_cons_succ]
        simp [List.getD_eq_getElem?_getD]

theorem mjAppend_columns (k : Nat) (rows : List (List Rat)) (row : List Rat) (h : row.length = k) :
    mjAppend (columns k rows) row = columns k (rows ++ [row]) := by
  apply List.ext_getElem?
  intro i
  rw [mjAppend_getElem? _ _ (by simp [columns, h])]
  unfold columns
  rw [List.getElem?_map, List.getElem?_map, Option.map_map]
  by_cases hi : i < k
  · rw [List.getElem?_range hi]
    simp
  · rw [List.getElem?_eq_none (by rw [List.length_range]; omega)]
    rfl

theorem columns_count (k : Nat) (rows : List (List Rat)) (hk : 0 < k) : mjCount (columns k rows) = rows.length := by
  unfold mjCount columns
  cases k with
  | zero => omega
  | succ k =>
    rw [List.range_succ_eq_map, List.map_cons, List.head?_cons, Option.getD_some, List.length_map]

/-! ## Parts -/

/-- no matrix is open -/
structure MjState.Idle (s : MjState) : Prop where
  bus : s.inBus = false
  gen : s.inGen = false
  branch : s.inBranch = false
  gencost : s.inGencost = false
  p : s.inP = false
  q : s.inQ = false

theorem mjBody_blank (v : MjVersion) (s : MjState) : mjBody v [] s = .ok s := by
  unfold mjBody
  rw [if_pos rfl]

theorem line_cons (r : MjLine) (hv : ∀ n ∈ r.nums, n.Valid) (hl : 0 < r.nums.length) :
    ∃ (n : PyNum) (k : Nat) (ts : List Tok), n.Valid ∧ r.toks = (n.text ++ List.replicate k ';') :: ts := by
  obtain ⟨n, hn⟩ : ∃ n, r.nums[0]? = some n := ⟨r.nums[0], List.getElem?_eq_getElem hl⟩
  have h := line_getElem? r 0 hl n hn
  cases ht : r.toks with
  | nil =>
    rw [ht] at h
    cases h
  | cons t ts =>
    rw [ht, List.getElem?_cons_zero, Option.some.injEq] at h
    exact ⟨n, _, ts, hv n (List.mem_of_getElem? hn), by rw [h]⟩

theorem head_row (v : MjVersion) (n : PyNum) (h : n.Valid) (k : Nat) (ts : List Tok) : mjHead v ((n.text ++ List.replicate k ';') :: ts) = .none := by
  have hd := numeral_head n h k
  unfold mjHead
  dsimp only
  rw [if_neg (hd _ (.inl (by decide))), if_neg (hd _ (.inl (by decide))), if_neg (hd _ (.inl (by decide))), if_neg (hd _ (.inl (by decide))),
    if_neg (hd _ (.inl (by decide))), if_neg (fun h0 => hd _ (.inl (by decide)) h0.1), if_neg (fun h0 => hd _ (.inl (by decide)) h0.1)]

theorem close_row (n : PyNum) (h : n.Valid) (k : Nat) (ts : List Tok) : ¬ ((n.text ++ List.replicate k ';') :: ts).head? = some mjClose := by
  rw [List.head?_cons, Option.some.injEq]
  exact numeral_head n h k _ (.inr (by decide))

theorem head_close (v : MjVersion) (ts : List Tok) : mjHead v ("];".toList :: ts) = .none := by
  unfold mjHead
  dsimp only
  rw [if_neg (by decide), if_neg (by decide), if_neg (by decide), if_neg (by decide), if_neg (by decide), if_neg (fun h => absurd h.1 (by decide)),
    if_neg (fun h => absurd h.1 (by decide))]

theorem head_other (v : MjVersion) (t : Tok) (ts : List Tok)
    (h : t ∉ ["mpc.baseMVA", "mpc.bus", "mpc.gen", "mpc.branch", "mpc.gencost", "mpc.demandP", "mpc.demandQ"].map String.toList) : mjHead v (t :: ts) = .none := by
  simp only [List.map_cons, List.map_nil, List.mem_cons, not_or] at h
  obtain ⟨h1, h2, h3, h4, h5, h6, h7, _⟩ := h
  unfold mjHead
  dsimp only
  rw [if_neg h1, if_neg h2, if_neg h3, if_neg h4, if_neg h5, if_neg (fun h0 => h6 h0.1), if_neg (fun h0 => h7 h0.1)]

theorem mjLoop_none (v : MjVersion) (line : List Tok) (rest : List (List Tok)) (s s' : MjState) (hh : mjHead v line = .none) (hb : mjBody v line s = .ok s') :
    mjLoop v (line :: rest) s = mjLoop v rest s' := by
  rw [mjLoop.eq_def]
  dsimp only
  rw [hh]
  dsimp only
  rw [hb]
  rfl

/-- the rows and the end of a matrix, for any of the flags -/
theorem rows_block (v : MjVersion) (on : MjState → MjState) (U : MjLine → MjState → MjState) (Good : MjLine → Prop) (I : MjState → Prop)
    (hpos : ∀ r, Good r → (∀ n ∈ r.nums, n.Valid) ∧ 0 < r.nums.length)
    (hrow : ∀ r, Good r → ∀ s, I s → mjBody v r.toks (on s) = .ok (on (U r s)) ∧ I (U r s))
    (hclose : ∀ s, I s → ∀ ts, mjBody v ("];".toList :: ts) (on s) = .ok s)
    (rows : List (Option MjLine)) (hg : ∀ r, some r ∈ rows → Good r) (close : List Tok) (rest : List (List Tok)) : ∀ s, I s →
    mjLoop v (rows.map (fun r => (r.map MjLine.toks).getD []) ++ ("];".toList :: close) :: rest) (on s) = mjLoop v rest ((rows.filterMap id).foldl (fun s r => U r s) s) := by
  induction rows with
  | nil =>
    intro s hs
    rw [List.map_nil, List.nil_append]
    exact mjLoop_none v _ rest _ _ (head_close v close) (hclose s hs close)
  | cons r rows ih =>
    intro s hs
    rw [List.map_cons, List.cons_append]
    cases r with
    | none =>
      rw [show ((none : Option MjLine).map MjLine.toks).getD [] = [] from rfl, mjLoop_none v _ _ _ (on s) rfl (mjBody_blank v (on s)),
        ih (fun r h => hg r (List.mem_cons_of_mem _ h)) s hs]
      rfl
    | some r =>
      have hr := hg r (List.mem_cons_self ..)
      obtain ⟨h1, h2⟩ := hpos r hr
      obtain ⟨b1, b2⟩ := hrow r hr s hs
      obtain ⟨n, k, ts, hn, ht⟩ := line_cons r h1 h2
      rw [show ((some r).map MjLine.toks).getD [] = r.toks from rfl, mjLoop_none v _ _ _ (on (U r s)) (by rw [ht]; exact head_row v n hn k ts) b1,
        ih (fun r h => hg r (List.mem_cons_of_mem _ h)) (U r s) b2]
      rfl

/-- the converter's state after some parts of a file -/
structure MjHolds (v : MjVersion) (parts : List MjPart) (s : MjState) : Prop where
  idle : s.Idle
  base : s.base = (parts.filterMap MjPart.baseOf).getLast?
  bus : s.bus = columns 13 (parts.flatMap MjPart.busRows)
  slack : s.slack = slackOf (parts.flatMap MjPart.busRows)
  gen : s.gen = columns 21 (parts.flatMap MjPart.genRows)
  branch : s.branch = columns 13 (parts.flatMap MjPart.branchRows)
  gencost : s.gencost = (parts.flatMap MjPart.costRows).map (costOf v)
  p : s.demandP = []
  q : s.demandQ = []

theorem bus_row (v : MjVersion) (r : MjLine) (h : RowOk v 13 [0, 1, 6, 10] r) : mjRow v busKinds r.toks = .ok (r.nums.map PyNum.value) := by
  refine mjRow_ok v busKinds r h.1 h.2.1 ?_ ?_
  · intro j k hk
    have hj : j < 13 := (List.getElem?_eq_some_iff.1 hk).1
    have : ∀ j < 13, (busKinds[j]? = some MjKind.last ↔ j + 1 = busKinds.length) := by decide
    rw [← this j hj, hk, Option.some.injEq]
  · intro j n hk hn
    have hj : j < 13 := (List.getElem?_eq_some_iff.1 hk).1
    have : ∀ j < 13, busKinds[j]? = some MjKind.int → j ∈ [0, 1, 6, 10] := by decide
    exact h.2.2 j (this j hj hk) n hn

theorem branch_row (v : MjVersion) (r : MjLine) (h : RowOk v 13 [0, 1, 10] r) : mjRow v branchKinds r.toks = .ok (r.nums.map PyNum.value) := by
  refine mjRow_ok v branchKinds r h.1 h.2.1 ?_ ?_
  · intro j k hk
    have hj : j < 13 := (List.getElem?_eq_some_iff.1 hk).1
    have : ∀ j < 13, (branchKinds[j]? = some MjKind.last ↔ j + 1 = branchKinds.length) := by decide
    rw [← this j hj, hk, Option.some.injEq]
  · intro j n hk hn
    have hj : j < 13 := (List.getElem?_eq_some_iff.1 hk).1
    have : ∀ j < 13, branchKinds[j]? = some MjKind.int → j ∈ [0, 1, 10] := by decide
    exact h.2.2 j (this j hj hk) n hn

theorem gen_row (v : MjVersion) (r : MjLine) (h : RowOk v 21 [0, 7] r) : mjRow v genKinds r.toks = .ok (r.nums.map PyNum.value) := by
  refine mjRow_ok v genKinds r h.1 h.2.1 ?_ ?_
  · intro j k hk
    have hj : j < 21 := (List.getElem?_eq_some_iff.1 hk).1
    have : ∀ j < 21, (genKinds[j]? = some MjKind.last ↔ j + 1 = genKinds.length) := by decide
    rw [← this j hj, hk, Option.some.injEq]
  · intro j n hk hn
    have hj : j < 21 := (List.getElem?_eq_some_iff.1 hk).1
    have : ∀ j < 21, genKinds[j]? = some MjKind.int → j ∈ [0, 7] := by decide
    exact h.2.2 j (this j hj hk) n hn

/-- the costs of a row -/
theorem cost_row (v : MjVersion) (r : MjLine) (h : CostRowOk v r) : mjCostRow v r.toks = .ok (costOf v r) := by
  obtain ⟨hv, h4, hm, hn, hl, hs⟩ := h
  have tok : ∀ j < 4, ∃ n, r.nums[j]? = some n ∧ n.Valid ∧ mjTok r.toks j = .ok n.text := by
    intro j hj
    obtain ⟨n, hn'⟩ : ∃ n, r.nums[j]? = some n := ⟨r.nums[j]'(by omega), List.getElem?_eq_getElem (by omega)⟩
    refine ⟨n, hn', hv n (List.mem_of_getElem? hn'), ?_⟩
    have := line_getElem? r j (by omega) n hn'
    unfold mjTok
    rw [this]
    split
    · rename_i h0
      cases h0
    · rename_i t h0
      rw [Option.some.injEq] at h0
      rw [← h0]
      split
      · rw [hs (by omega)]
        simp
      · simp
  obtain ⟨n0, a0, b0, c0⟩ := tok 0 (by omega)
  obtain ⟨n1, a1, b1, c1⟩ := tok 1 (by omega)
  obtain ⟨n2, a2, b2, c2⟩ := tok 2 (by omega)
  obtain ⟨n3, a3, b3, c3⟩ := tok 3 (by omega)
  obtain ⟨z0, d0, e0⟩ := plain_int n0 b0 (hm n0 a0)
  obtain ⟨hp3, hv3⟩ := hn n3 a3
  obtain ⟨z3, d3, e3⟩ := plain_int n3 b3 hp3
  have hz : z3 = (r.nums.length : Int) - 4 := by
    rw [e3] at hv3
    exact_mod_cast hv3
  have hcost : (List.range z3.toNat).mapM (mjCoef v r.toks z3) = .ok ((costOf v r).cost) := by
    unfold costOf
    dsimp only
    rw [show z3.toNat = r.nums.length - 4 by omega]
    apply mapM_all
    intro x hx
    rw [List.mem_range] at hx
    obtain ⟨n, hn'⟩ : ∃ n, r.nums[4 + x]? = some n := ⟨r.nums[4 + x]'(by omega), List.getElem?_eq_getElem (by omega)⟩
    have hval := hv n (List.mem_of_getElem? hn')
    have ht := line_getElem? r (4 + x) (by omega) n hn'
    unfold mjCoef
    rw [ht, hn']
    dsimp only
    by_cases hx' : x + 1 = r.nums.length - 4
    · rw [if_neg (by omega), if_pos (by omega)]
      cases v with
      | engine =>
        rw [if_pos ⟨rfl, by omega⟩, noSemi_text]
      | attest =>
        rw [if_neg (by simp), noSemi_text]
        obtain ⟨z, h1, h2⟩ := plain_int n hval (hl (by omega) (by simp) n (by rw [← hn']; congr 1; omega))
        rw [h1, h2]
        rfl
      | optimisers =>
        rw [if_neg (by simp), noSemi_text]
        obtain ⟨z, h1, h2⟩ := plain_int n hval (hl (by omega) (by simp) n (by rw [← hn']; congr 1; omega))
        rw [h1, h2]
        rfl
    · rw [if_pos (by omega), if_neg (by omega), if_neg (by omega), List.replicate_zero, List.append_nil, C156_numeral n hval]
      rfl
  unfold mjCostRow
  simp only [c0, c1, c2, c3, d0, d3, C156_numeral n1 b1, C156_numeral n2 b2, hcost, bind, Except.bind, pure, Except.pure]
  unfold costOf
  dsimp only
  rw [a0, a1, a2]
  simp only [Option.map_some, Option.getD_some, e0, Rat.floor_intCast, hz]

theorem slackOf_append (rows : List (List Rat)) (row : List Rat) (h2 : 2 ≤ row.length) (hz : ∃ z : Int, row.getD 0 0 = (z : Rat)) :
    slackOf (rows ++ [row]) = mjSlack row (slackOf rows) := by
  obtain ⟨z, hz⟩ := hz
  match row, h2 with
  | n :: t :: r, _ =>
    unfold slackOf mjSlack
    dsimp only
    rw [List.filter_append]
    by_cases ht : t = 3
    · rw [List.filter_cons_of_pos (by simpa using ht), List.filter_nil, List.getLast?_append, if_pos ht]
      simp only [List.getD_cons_zero] at hz
      simp [hz, pyTrunc_int, Rat.floor_intCast]
    · rw [List.filter_cons_of_neg (by simpa using ht), List.filter_nil, List.append_nil, if_neg ht]

/-- one row of each matrix, and its end, when no other matrix is open -/
theorem body_bus (v : MjVersion) (line : List Tok) (hl : line ≠ []) (s : MjState) (hi : s.Idle) :
    mjBody v line { s with inBus := true } = mjBus v line { s with inBus := true } := by
  unfold mjBody
  rw [if_neg hl]
  cases hb : mjBus v line { s with inBus := true } with
  | error e => rfl
  | ok s' =>
    have : s'.inGen = false ∧ s'.inBranch = false ∧ s'.inGencost = false ∧ s'.inP = false ∧ s'.inQ = false := by
      unfold mjBus at hb
      rw [if_pos rfl] at hb
      split at hb
      · cases hb
        exact ⟨hi.gen, hi.branch, hi.gencost, hi.p, hi.q⟩
      · cases hr : mjRow v busKinds line with
        | error e =>
          rw [hr] at hb
          cases hb
        | ok row =>
          rw [hr] at hb
          cases hb
          exact ⟨hi.gen, hi.branch, hi.gencost, hi.p, hi.q⟩
    obtain ⟨h1, h2, h3, h4, h5⟩ := this
    simp [bind, Except.bind, mjGen, mjBranch, mjGencost, mjP, mjQ, h1, h2, h3, h4, h5]

theorem body_gen (v : MjVersion) (line : List Tok) (hl : line ≠ []) (s : MjState) (hi : s.Idle) :
    mjBody v line { s with inGen := true } = mjGen v line { s with inGen := true } := by
  unfold mjBody
  rw [if_neg hl]
  have h0 : mjBus v line { s with inGen := true } = .ok { s with inGen := true } := by
    unfold mjBus
    rw [if_neg (by simp [hi.bus])]
  rw [h0]
  cases hb : mjGen v line { s with inGen := true } with
  | error e =>
    simp only [bind, Except.bind, hb]
  | ok s' =>
    have : s'.inBranch = false ∧ s'.inGencost = false ∧ s'.inP = false ∧ s'.inQ = false := by
      unfold mjGen at hb
      rw [if_pos rfl] at hb
      split at hb
      · cases hb
        exact ⟨hi.branch, hi.gencost, hi.p, hi.q⟩
      · cases hr : mjRow v genKinds line with
        | error e =>
          rw [hr] at hb
          cases hb
        | ok row =>
          rw [hr] at hb
          cases hb
          exact ⟨hi.branch, hi.gencost, hi.p, hi.q⟩
    obtain ⟨h2, h3, h4, h5⟩ := this
    simp [bind, Except.bind, hb, mjBranch, mjGencost, mjP, mjQ, h2, h3, h4, h5]

theorem body_branch (v : MjVersion) (line : List Tok) (hl : line ≠ []) (s : MjState) (hi : s.Idle) :
    mjBody v line { s with inBranch := true } = mjBranch v line { s with inBranch := true } := by
  unfold mjBody
  rw [if_neg hl]
  have h0 : mjBus v line { s with inBranch := true } = .ok { s with inBranch := true } := by
    unfold mjBus
    rw [if_neg (by simp [hi.bus])]
  have h1 : mjGen v line { s with inBranch := true } = .ok { s with inBranch := true } := by
    unfold mjGen
    rw [if_neg (by simp [hi.gen])]
  rw [h0]
  cases hb : mjBranch v line { s with inBranch := true } with
  | error e =>
    simp only [bind, Except.bind, h1, hb]
  | ok s' =>
    have : s'.inGencost = false ∧ s'.inP = false ∧ s'.inQ = false := by
      unfold mjBranch at hb
      rw [if_pos rfl] at hb
      split at hb
      · cases hb
        exact ⟨hi.gencost, hi.p, hi.q⟩
      · cases hr : mjRow v branchKinds line with
        | error e =>
          rw [hr] at hb
          cases hb
        | ok row =>
          rw [hr] at hb
          cases hb
          exact ⟨hi.gencost, hi.p, hi.q⟩
    obtain ⟨h3, h4, h5⟩ := this
    simp [bind, Except.bind, h1, hb, mjGencost, mjP, mjQ, h3, h4, h5]

theorem body_gencost (v : MjVersion) (line : List Tok) (hl : line ≠ []) (s : MjState) (hi : s.Idle) :
    mjBody v line { s with inGencost := true } = mjGencost v line { s with inGencost := true } := by
  unfold mjBody
  rw [if_neg hl]
  have h0 : mjBus v line { s with inGencost := true } = .ok { s with inGencost := true } := by
    unfold mjBus
    rw [if_neg (by simp [hi.bus])]
  have h1 : mjGen v line { s with inGencost := true } = .ok { s with inGencost := true } := by
    unfold mjGen
    rw [if_neg (by simp [hi.gen])]
  have h2 : mjBranch v line { s with inGencost := true } = .ok { s with inGencost := true } := by
    unfold mjBranch
    rw [if_neg (by simp [hi.branch])]
  rw [h0]
  cases hb : mjGencost v line { s with inGencost := true } with
  | error e =>
    simp only [bind, Except.bind, h1, h2, hb]
  | ok s' =>
    have : s'.inP = false ∧ s'.inQ = false := by
      unfold mjGencost at hb
      rw [if_pos rfl] at hb
      split at hb
      · cases hb
        exact ⟨hi.p, hi.q⟩
      · cases hr : mjCostRow v line with
        | error e =>
          rw [hr] at hb
          cases hb
        | ok row =>
          rw [hr] at hb
          cases hb
          exact ⟨hi.p, hi.q⟩
    obtain ⟨h4, h5⟩ := this
    simp [bind, Except.bind, h1, h2, hb, mjP, mjQ, h4, h5]

theorem body_idle (v : MjVersion) (line : List Tok) (s : MjState) (hi : s.Idle) : mjBody v line s = .ok s := by
  unfold mjBody
  split
  · rfl
  · simp [bind, Except.bind, mjBus, mjGen, mjBranch, mjGencost, mjP, mjQ, hi.bus, hi.gen, hi.branch, hi.gencost, hi.p, hi.q]

theorem toks_ne (r : MjLine) (hv : ∀ n ∈ r.nums, n.Valid) (hl : 0 < r.nums.length) : r.toks ≠ [] ∧ ¬ r.toks.head? = some mjClose := by
  obtain ⟨n, k, ts, hn, ht⟩ := line_cons r hv hl
  rw [ht]
  exact ⟨by simp, close_row n hn k ts⟩

/-- the rows of a bus matrix one after the other -/
theorem fold_bus (v : MjVersion) (parts : List MjPart) (head close : List Tok) (rows : List (Option MjLine)) (hok : ∀ r, some r ∈ rows → RowOk v 13 [0, 1, 6, 10] r)
    (s : MjState) (h : MjHolds v parts s) :
    MjHolds v (parts ++ [.bus head rows close])
      ((rows.filterMap id).foldl (fun s r => { s with bus := mjAppend s.bus (r.nums.map PyNum.value), slack := mjSlack (r.nums.map PyNum.value) s.slack }) s) := by
  have key : ∀ (l : List MjLine) (acc : List (List Rat)) (s : MjState), (∀ r ∈ l, RowOk v 13 [0, 1, 6, 10] r) → s.bus = columns 13 acc → s.slack = slackOf acc →
      l.foldl (fun s r => { s with bus := mjAppend s.bus (r.nums.map PyNum.value), slack := mjSlack (r.nums.map PyNum.value) s.slack }) s =
        { s with bus := columns 13 (acc ++ l.map (fun r => r.nums.map PyNum.value)), slack := slackOf (acc ++ l.map (fun r => r.nums.map PyNum.value)) } := by
    intro l
    induction l with
    | nil =>
      intro acc s _ h1 h2
      simp [← h1, ← h2]
    | cons r l ih =>
      intro acc s hr h1 h2
      have hr0 := hr r (List.mem_cons_self ..)
      have hlen : (r.nums.map PyNum.value).length = 13 := by rw [List.length_map]; exact hr0.1
      have hz : ∃ z : Int, (r.nums.map PyNum.value).getD 0 0 = (z : Rat) := by
        obtain ⟨n, hn⟩ : ∃ n, r.nums[0]? = some n := ⟨r.nums[0]'(by rw [hr0.1]; omega), List.getElem?_eq_getElem _⟩
        obtain ⟨z, _, hz⟩ := whole_value v n (hr0.2.1 n (List.mem_of_getElem? hn)) (hr0.2.2 0 (by simp) n hn)
        exact ⟨z, by rw [List.getD_eq_getElem?_getD, List.getElem?_map, hn]; simpa using hz⟩
      rw [List.foldl_cons, ih (acc ++ [r.nums.map PyNum.value]) _ (fun r' h' => hr r' (List.mem_cons_of_mem _ h'))
        (by dsimp only; rw [h1, mjAppend_columns 13 acc _ hlen]) (by dsimp only; rw [h2, slackOf_append _ _ (by omega) hz])]
      simp
  rw [key (rows.filterMap id) (parts.flatMap MjPart.busRows) s (fun r hr => hok r (by
    obtain ⟨a, ha, hb⟩ := List.mem_filterMap.1 hr
    rw [id] at hb
    rwa [hb] at ha)) h.bus h.slack]
  have e : (parts ++ [MjPart.bus head rows close]).flatMap MjPart.busRows =
      parts.flatMap MjPart.busRows ++ (rows.filterMap id).map (fun r => r.nums.map PyNum.value) := by
    rw [List.flatMap_append, List.flatMap_singleton]
    show _ ++ rowValues rows = _
    unfold rowValues
    rw [List.map_filterMap]
    rfl
  exact ⟨⟨h.idle.bus, h.idle.gen, h.idle.branch, h.idle.gencost, h.idle.p, h.idle.q⟩, by simp [h.base, MjPart.baseOf], by rw [e], by rw [e],
    by simp [h.gen, MjPart.genRows], by simp [h.branch, MjPart.branchRows], by simp [h.gencost, MjPart.costRows], h.p, h.q⟩

theorem fold_gen (v : MjVersion) (parts : List MjPart) (head close : List Tok) (rows : List (Option MjLine)) (hok : ∀ r, some r ∈ rows → RowOk v 21 [0, 7] r)
    (s : MjState) (h : MjHolds v parts s) :
    MjHolds v (parts ++ [.gen head rows close]) ((rows.filterMap id).foldl (fun s r => { s with gen := mjAppend s.gen (r.nums.map PyNum.value) }) s) := by
  have key : ∀ (l : List MjLine) (acc : List (List Rat)) (s : MjState), (∀ r ∈ l, RowOk v 21 [0, 7] r) → s.gen = columns 21 acc →
      l.foldl (fun s r => { s with gen := mjAppend s.gen (r.nums.map PyNum.value) }) s = { s with gen := columns 21 (acc ++ l.map (fun r => r.nums.map PyNum.value)) } := by
    intro l
    induction l with
    | nil =>
      intro acc s _ h1
      simp [← h1]
    | cons r l ih =>
      intro acc s hr h1
      have hr0 := hr r (List.mem_cons_self ..)
      have hlen : (r.nums.map PyNum.value).length = 21 := by rw [List.length_map]; exact hr0.1
      rw [List.foldl_cons, ih (acc ++ [r.nums.map PyNum.value]) _ (fun r' h' => hr r' (List.mem_cons_of_mem _ h'))
        (by dsimp only; rw [h1, mjAppend_columns 21 acc _ hlen])]
      simp
  rw [key (rows.filterMap id) (parts.flatMap MjPart.genRows) s (fun r hr => hok r (by
    obtain ⟨a, ha, hb⟩ := List.mem_filterMap.1 hr
    rw [id] at hb
    rwa [hb] at ha)) h.gen]
  have e : (parts ++ [MjPart.gen head rows close]).flatMap MjPart.genRows =
      parts.flatMap MjPart.genRows ++ (rows.filterMap id).map (fun r => r.nums.map PyNum.value) := by
    rw [List.flatMap_append, List.flatMap_singleton]
    show _ ++ rowValues rows = _
    unfold rowValues
    rw [List.map_filterMap]
    rfl
  exact ⟨⟨h.idle.bus, h.idle.gen, h.idle.branch, h.idle.gencost, h.idle.p, h.idle.q⟩, by simp [h.base, MjPart.baseOf], by simp [h.bus, MjPart.busRows],
    by simp [h.slack, MjPart.busRows], by rw [e], by simp [h.branch, MjPart.branchRows], by simp [h.gencost, MjPart.costRows], h.p, h.q⟩

theorem fold_branch (v : MjVersion) (parts : List MjPart) (head close : List Tok) (rows : List (Option MjLine)) (hok : ∀ r, some r ∈ rows → RowOk v 13 [0, 1, 10] r)
    (s : MjState) (h : MjHolds v parts s) :
    MjHolds v (parts ++ [.branch head rows close]) ((rows.filterMap id).foldl (fun s r => { s with branch := mjAppend s.branch (r.nums.map PyNum.value) }) s) := by
  have key : ∀ (l : List MjLine) (acc : List (List Rat)) (s : MjState), (∀ r ∈ l, RowOk v 13 [0, 1, 10] r) → s.branch = columns 13 acc →
      l.foldl (fun s r => { s with branch := mjAppend s.branch (r.nums.map PyNum.value) }) s = { s with branch := columns 13 (acc ++ l.map (fun r => r.nums.map PyNum.value)) } := by
    intro l
    induction l with
    | nil =>
      intro acc s _ h1
      simp [← h1]
    | cons r l ih =>
      intro acc s hr h1
      have hr0 := hr r (List.mem_cons_self ..)
      have hlen : (r.nums.map PyNum.value).length = 13 := by rw [List.length_map]; exact hr0.1
      rw [List.foldl_cons, ih (acc ++ [r.nums.map PyNum.value]) _ (fun r' h' => hr r' (List.mem_cons_of_mem _ h'))
        (by dsimp only; rw [h1, mjAppend_columns 13 acc _ hlen])]
      simp
  rw [key (rows.filterMap id) (parts.flatMap MjPart.branchRows) s (fun r hr => hok r (by
    obtain ⟨a, ha, hb⟩ := List.mem_filterMap.1 hr
    rw [id] at hb
    rwa [hb] at ha)) h.branch]
  have e : (parts ++ [MjPart.branch head rows close]).flatMap MjPart.branchRows =
      parts.flatMap MjPart.branchRows ++ (rows.filterMap id).map (fun r => r.nums.map PyNum.value) := by
    rw [List.flatMap_append, List.flatMap_singleton]
    show _ ++ rowValues rows = _
    unfold rowValues
    rw [List.map_filterMap]
    rfl
  exact ⟨⟨h.idle.bus, h.idle.gen, h.idle.branch, h.idle.gencost, h.idle.p, h.idle.q⟩, by simp [h.base, MjPart.baseOf], by simp [h.bus, MjPart.busRows],
    by simp [h.slack, MjPart.busRows], by simp [h.gen, MjPart.genRows], by rw [e], by simp [h.gencost, MjPart.costRows], h.p, h.q⟩

theorem fold_gencost (v : MjVersion) (parts : List MjPart) (head close : List Tok) (rows : List (Option MjLine)) (s : MjState) (h : MjHolds v parts s) :
    MjHolds v (parts ++ [.gencost head rows close]) ((rows.filterMap id).foldl (fun s r => { s with gencost := s.gencost ++ [costOf v r] }) s) := by
  have key : ∀ (l : List MjLine) (s : MjState), l.foldl (fun s r => { s with gencost := s.gencost ++ [costOf v r] }) s = { s with gencost := s.gencost ++ l.map (costOf v) } := by
    intro l
    induction l with
    | nil => simp
    | cons r l ih =>
      intro s
      rw [List.foldl_cons, ih]
      simp
  rw [key]
  exact ⟨⟨h.idle.bus, h.idle.gen, h.idle.branch, h.idle.gencost, h.idle.p, h.idle.q⟩, by simp [h.base, MjPart.baseOf], by simp [h.bus, MjPart.busRows],
    by simp [h.slack, MjPart.busRows], by simp [h.gen, MjPart.genRows], by simp [h.branch, MjPart.branchRows],
    by dsimp only; rw [h.gencost, List.flatMap_append, List.flatMap_singleton, List.map_append]; rfl, h.p, h.q⟩

theorem idle_bus {s : MjState} (h : s.Idle) (a : List (List Rat)) (b : Option Int) : ({ s with bus := a, slack := b } : MjState).Idle :=
  ⟨h.bus, h.gen, h.branch, h.gencost, h.p, h.q⟩

theorem off_bus {s : MjState} (h : s.Idle) : ({ s with inBus := false } : MjState) = s := by
  have := h.bus
  cases s
  simp_all
theorem off_gen {s : MjState} (h : s.Idle) : ({ s with inGen := false } : MjState) = s := by
  have := h.gen
  cases s
  simp_all
theorem off_branch {s : MjState} (h : s.Idle) : ({ s with inBranch := false } : MjState) = s := by
  have := h.branch
  cases s
  simp_all
theorem off_gencost {s : MjState} (h : s.Idle) : ({ s with inGencost := false } : MjState) = s := by
  have := h.gencost
  cases s
  simp_all

/-- one part of a file -/
theorem part_step (v : MjVersion) (part : MjPart) (hok : part.Ok v) (parts : List MjPart) (rest : List (List Tok)) (s : MjState) (h : MjHolds v parts s) :
    ∃ s', MjHolds v (parts ++ [part]) s' ∧ mjLoop v (part.lines ++ rest) s = mjLoop v rest s' := by
  cases hok with
  | blank =>
    refine ⟨s, ⟨h.idle, by simp [h.base, MjPart.baseOf], by simp [h.bus, MjPart.busRows], by simp [h.slack, MjPart.busRows], by simp [h.gen, MjPart.genRows],
      by simp [h.branch, MjPart.branchRows], by simp [h.gencost, MjPart.costRows], h.p, h.q⟩, ?_⟩
    exact mjLoop_none v [] rest s s rfl (mjBody_blank v s)
  | other t ts ht =>
    refine ⟨s, ⟨h.idle, by simp [h.base, MjPart.baseOf], by simp [h.bus, MjPart.busRows], by simp [h.slack, MjPart.busRows], by simp [h.gen, MjPart.genRows],
      by simp [h.branch, MjPart.branchRows], by simp [h.gencost, MjPart.costRows], h.p, h.q⟩, ?_⟩
    exact mjLoop_none v _ rest s s (head_other v t ts ht) (body_idle v _ s h.idle)
  | base eq n k tail hn =>
    refine ⟨{ s with base := some n.value }, ⟨⟨h.idle.bus, h.idle.gen, h.idle.branch, h.idle.gencost, h.idle.p, h.idle.q⟩, by simp [MjPart.baseOf],
      by simp [h.bus, MjPart.busRows], by simp [h.slack, MjPart.busRows], by simp [h.gen, MjPart.genRows],
      by simp [h.branch, MjPart.branchRows], by simp [h.gencost, MjPart.costRows], h.p, h.q⟩, ?_⟩
    show mjLoop v (("mpc.baseMVA".toList :: eq :: (n.text ++ List.replicate k ';') :: tail) :: rest) s = _
    have hh : mjHead v ("mpc.baseMVA".toList :: eq :: (n.text ++ List.replicate k ';') :: tail) = .base := by
      unfold mjHead
      dsimp only
      rw [if_pos rfl]
    have hb : mjBase ("mpc.baseMVA".toList :: eq :: (n.text ++ List.replicate k ';') :: tail) s = .ok { s with base := some n.value } := by
      unfold mjBase
      simp only [List.getElem?_cons_succ, List.getElem?_cons_zero, noSemi_text, C156_numeral n hn]
      rfl
    rw [mjLoop.eq_def]
    dsimp only
    rw [hh]
    dsimp only
    rw [hb]
    dsimp only [bind, Except.bind]
    rw [body_idle v _ { s with base := some n.value } ⟨h.idle.bus, h.idle.gen, h.idle.branch, h.idle.gencost, h.idle.p, h.idle.q⟩]
  | bus head rows close hr =>
    refine ⟨_, fold_bus v parts head close rows hr s h, ?_⟩
    have hh : mjHead v ("mpc.bus".toList :: head) = .bus := by
      unfold mjHead
      dsimp only
      rw [if_neg (by decide), if_pos rfl]
    show mjLoop v (("mpc.bus".toList :: head) :: (rows.map (fun r => (r.map MjLine.toks).getD []) ++ ["];".toList :: close]) ++ rest) s = _
    rw [List.cons_append, List.append_assoc, mjLoop.eq_def]
    dsimp only
    rw [hh]
    dsimp only
    exact rows_block v (fun s => { s with inBus := true }) (fun r s => { s with bus := mjAppend s.bus (r.nums.map PyNum.value), slack := mjSlack (r.nums.map PyNum.value) s.slack })
      (RowOk v 13 [0, 1, 6, 10]) MjState.Idle (fun r h => ⟨h.2.1, by rw [h.1]; omega⟩) (fun r h0 s hs => by
        obtain ⟨h1, h2⟩ := toks_ne r h0.2.1 (by rw [h0.1]; omega)
        refine ⟨?_, ⟨hs.bus, hs.gen, hs.branch, hs.gencost, hs.p, hs.q⟩⟩
        rw [body_bus v _ h1 s hs]
        unfold mjBus
        rw [if_pos rfl, if_neg h2, bus_row v r h0]
        rfl) (fun s hs ts => by
        rw [body_bus v _ (by simp) s hs]
        unfold mjBus
        rw [if_pos rfl, if_pos (show ("];".toList :: ts).head? = some mjClose from rfl)]
        exact congrArg Except.ok (off_bus hs)) rows hr close rest s h.idle
  | gen head rows close hr =>
    refine ⟨_, fold_gen v parts head close rows hr s h, ?_⟩
    have hh : mjHead v ("mpc.gen".toList :: head) = .gen := by
      unfold mjHead
      dsimp only
      rw [if_neg (by decide), if_neg (by decide), if_pos rfl]
    show mjLoop v (("mpc.gen".toList :: head) :: (rows.map (fun r => (r.map MjLine.toks).getD []) ++ ["];".toList :: close]) ++ rest) s = _
    rw [List.cons_append, List.append_assoc, mjLoop.eq_def]
    dsimp only
    rw [hh]
    dsimp only
    exact rows_block v (fun s => { s with inGen := true }) (fun r s => { s with gen := mjAppend s.gen (r.nums.map PyNum.value) })
      (RowOk v 21 [0, 7]) MjState.Idle (fun r h => ⟨h.2.1, by rw [h.1]; omega⟩) (fun r h0 s hs => by
        obtain ⟨h1, h2⟩ := toks_ne r h0.2.1 (by rw [h0.1]; omega)
        refine ⟨?_, ⟨hs.bus, hs.gen, hs.branch, hs.gencost, hs.p, hs.q⟩⟩
        rw [body_gen v _ h1 s hs]
        unfold mjGen
        rw [if_pos rfl, if_neg h2, gen_row v r h0]
        rfl) (fun s hs ts => by
        rw [body_gen v _ (by simp) s hs]
        unfold mjGen
        rw [if_pos rfl, if_pos (show ("];".toList :: ts).head? = some mjClose from rfl)]
        exact congrArg Except.ok (off_gen hs)) rows hr close rest s h.idle
  | branch head rows close hr =>
    refine ⟨_, fold_branch v parts head close rows hr s h, ?_⟩
    have hh : mjHead v ("mpc.branch".toList :: head) = .branch := by
      unfold mjHead
      dsimp only
      rw [if_neg (by decide), if_neg (by decide), if_neg (by decide), if_pos rfl]
    show mjLoop v (("mpc.branch".toList :: head) :: (rows.map (fun r => (r.map MjLine.toks).getD []) ++ ["];".toList :: close]) ++ rest) s = _
    rw [List.cons_append, List.append_assoc, mjLoop.eq_def]
    dsimp only
    rw [hh]
    dsimp only
    exact rows_block v (fun s => { s with inBranch := true }) (fun r s => { s with branch := mjAppend s.branch (r.nums.map PyNum.value) })
      (RowOk v 13 [0, 1, 10]) MjState.Idle (fun r h => ⟨h.2.1, by rw [h.1]; omega⟩) (fun r h0 s hs => by
        obtain ⟨h1, h2⟩ := toks_ne r h0.2.1 (by rw [h0.1]; omega)
        refine ⟨?_, ⟨hs.bus, hs.gen, hs.branch, hs.gencost, hs.p, hs.q⟩⟩
        rw [body_branch v _ h1 s hs]
        unfold mjBranch
        rw [if_pos rfl, if_neg h2, branch_row v r h0]
        rfl) (fun s hs ts => by
        rw [body_branch v _ (by simp) s hs]
        unfold mjBranch
        rw [if_pos rfl, if_pos (show ("];".toList :: ts).head? = some mjClose from rfl)]
        exact congrArg Except.ok (off_branch hs)) rows hr close rest s h.idle
  | gencost head rows close hr =>
    refine ⟨_, fold_gencost v parts head close rows s h, ?_⟩
    have hh : mjHead v ("mpc.gencost".toList :: head) = .gencost := by
      unfold mjHead
      dsimp only
      rw [if_neg (by decide), if_neg (by decide), if_neg (by decide), if_neg (by decide), if_pos rfl]
    show mjLoop v (("mpc.gencost".toList :: head) :: (rows.map (fun r => (r.map MjLine.toks).getD []) ++ ["];".toList :: close]) ++ rest) s = _
    have hblock := rows_block v (fun s => { s with inGencost := true }) (fun r s => { s with gencost := s.gencost ++ [costOf v r] })
      (CostRowOk v) MjState.Idle (fun r h => ⟨h.1, by have := h.2.1; omega⟩) (fun r h0 s hs => by
        obtain ⟨h1, h2⟩ := toks_ne r h0.1 (by have := h0.2.1; omega)
        refine ⟨?_, ⟨hs.bus, hs.gen, hs.branch, hs.gencost, hs.p, hs.q⟩⟩
        rw [body_gencost v _ h1 s hs]
        unfold mjGencost
        rw [if_pos rfl, if_neg h2, cost_row v r h0]
        rfl) (fun s hs ts => by
        rw [body_gencost v _ (by simp) s hs]
        unfold mjGencost
        rw [if_pos rfl, if_pos (show ("];".toList :: ts).head? = some mjClose from rfl)]
        exact congrArg Except.ok (off_gencost hs)) rows hr close rest s h.idle
    rw [List.cons_append, List.append_assoc, ← hblock, mjLoop.eq_def]
    dsimp only
    rw [hh]
    dsimp only
    split
    · rfl
    · obtain ⟨next, more, hnext⟩ : ∃ next more, rows.map (fun r => (r.map MjLine.toks).getD []) ++ ("];".toList :: close) :: rest = next :: more := by
        cases hr' : rows.map (fun r => (r.map MjLine.toks).getD []) with
        | nil => exact ⟨_, _, rfl⟩
        | cons a b => exact ⟨a, _, rfl⟩
      have hnone : mjHead v next = .none := by
        cases rows with
        | nil =>
          rw [List.map_nil, List.nil_append, List.cons.injEq] at hnext
          rw [← hnext.1]
          exact head_close v close
        | cons r rows =>
          rw [List.map_cons, List.cons_append, List.cons.injEq] at hnext
          rw [← hnext.1]
          cases r with
          | none => rfl
          | some r =>
            have h0 := hr r (List.mem_cons_self ..)
            obtain ⟨n, k, ts, hn, ht⟩ := line_cons r h0.1 (by have := h0.2.1; omega)
            show mjHead v r.toks = _
            rw [ht]
            exact head_row v n hn k ts
      simp only [List.singleton_append, hnext]
      conv_rhs => rw [mjLoop.eq_def]
      dsimp only
      rw [hnone]

/-- **C157**: every file of the usual layout — a base, matrices of buses, generators, branches and costs laid out row by row with their closing line, blank and other lines
between them — is converted to the network it describes: each column holds the numbers of the file in the order of the rows, the numbers of buses, branches and
generators are those of the rows, the slack bus is the (last) bus of type 3, and the costs are those of the rows (the old version keeps the last coefficient as a text). -/
theorem C157_file_partial (v : MjVersion) (parts : List MjPart) (hok : ∀ p ∈ parts, p.Ok v) :
    ∃ net, matpower2json v (parts.flatMap MjPart.lines) = .ok net ∧
      net.base = (parts.filterMap MjPart.baseOf).getLast? ∧
      net.bus = columns 13 (parts.flatMap MjPart.busRows) ∧ net.noBus = (parts.flatMap MjPart.busRows).length ∧
      net.gen = columns 21 (parts.flatMap MjPart.genRows) ∧ net.noGen = (parts.flatMap MjPart.genRows).length ∧
      net.branch = columns 13 (parts.flatMap MjPart.branchRows) ∧ net.noBranch = (parts.flatMap MjPart.branchRows).length ∧
      net.slack = slackOf (parts.flatMap MjPart.busRows) ∧
      net.gencost = (parts.flatMap MjPart.costRows).map (costOf v) ∧ net.demandP = [] ∧ net.demandQ = [] := by
  have key : ∀ (todo done : List MjPart) (s : MjState), (∀ p ∈ todo, p.Ok v) → MjHolds v done s →
      ∃ s', mjLoop v (todo.flatMap MjPart.lines) s = .ok s' ∧ MjHolds v (done ++ todo) s' := by
    intro todo
    induction todo with
    | nil =>
      intro done s _ h
      refine ⟨s, ?_, by rw [List.append_nil]; exact h⟩
      rw [mjLoop.eq_def]
      rfl
    | cons p todo ih =>
      intro done s hp h
      obtain ⟨s1, h1, h2⟩ := part_step v p (hp p (List.mem_cons_self ..)) done (todo.flatMap MjPart.lines) s h
      obtain ⟨s2, h3, h4⟩ := ih (done ++ [p]) s1 (fun q hq => hp q (List.mem_cons_of_mem _ hq)) h1
      refine ⟨s2, ?_, by rw [List.append_assoc, List.singleton_append] at h4; exact h4⟩
      rw [List.flatMap_cons, h2, h3]
  obtain ⟨s, h1, h2⟩ := key parts [] {} hok ⟨⟨rfl, rfl, rfl, rfl, rfl, rfl⟩, rfl, rfl, rfl, rfl, rfl, rfl, rfl, rfl⟩
  rw [List.nil_append] at h2
  refine ⟨_, by unfold matpower2json; rw [h1]; rfl, h2.base, h2.bus, ?_, h2.gen, ?_, h2.branch, ?_, h2.slack, h2.gencost, h2.p, h2.q⟩
  · dsimp only
    rw [h2.bus, columns_count 13 _ (by omega)]
  · dsimp only
    rw [h2.gen, columns_count 21 _ (by omega)]
  · dsimp only
    rw [h2.branch, columns_count 13 _ (by omega)]

end Pyensys
