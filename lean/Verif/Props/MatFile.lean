import Verif.Model.MatFile
import Mathlib.Data.Nat.Digits.Defs
import Mathlib.Tactic.Ring
import Mathlib.Tactic.FieldSimp
import Mathlib.Tactic.Linarith

/-!
# C44, C69, C70: reading MATPOWER case files
-/

namespace Pyensys

/-! ## Vocabulary -/

/-- the character of a digit -/
def digitChar (d : Fin 10) : Char := Char.ofNat (48 + d.val)

/-- the number written by digits, most significant first -/
def numberOf (ds : List (Fin 10)) : Nat := Nat.ofDigits 10 (ds.reverse.map (·.val))

/-- characters the reader passes over -/
def Junk (cs : List Char) : Prop := ∀ c ∈ cs, isDig c = false ∧ c ≠ '.' ∧ c ≠ 'e'

instance : DecidablePred Junk := fun cs => by unfold Junk; infer_instance

/-- a numeral: leading junk, sign, integer part, fraction, exponent (`true`: e+, `false`: e-), trailing
junk -/
structure Numeral where
  lead : List Char := []
  neg : Bool := false
  int : List (Fin 10) := []
  point : Bool := false
  frac : List (Fin 10) := []
  exp : Option (Bool × List (Fin 10)) := none
  trail : List Char := []

/-- the text of the exponent -/
def expText : Option (Bool × List (Fin 10)) → List Char
  | none => []
  | some (plus, k) => 'e' :: (if plus then '+' else '-') :: k.map digitChar

/-- the factor of the exponent -/
def expFactor : Option (Bool × List (Fin 10)) → Rat
  | none => 1
  | some (plus, k) => if plus then 10 ^ numberOf k else 1 / 10 ^ numberOf k

namespace Numeral

/-- the numeral as it stands in the file -/
def text (n : Numeral) : List Char :=
  n.lead ++ ((if n.neg then ['-'] else []) ++ (n.int.map digitChar ++
    ((if n.point then '.' :: n.frac.map digitChar else []) ++ (expText n.exp ++ n.trail))))

/-- its value -/
def value (n : Numeral) : Rat :=
  (if n.neg then -1 else 1) * ((numberOf n.int : Rat) + (numberOf n.frac : Rat) / 10 ^ n.frac.length) *
    expFactor n.exp

/-- the numerals covered: at least one digit; no digits after a missing point; junk does not contain
digits, points or 'e'; no junk before a sign and none after an exponent; leading junk does not look like
a sign; an exponent has digits -/
structure Valid (n : Numeral) : Prop where
  digits : n.int ++ n.frac ≠ []
  frac : n.point = false → n.frac = []
  lead : Junk n.lead
  trail : Junk n.trail
  noMinus : n.lead.head? ≠ some '-'
  sign : n.neg = true → n.lead = []
  exp : ∀ p k, n.exp = some (p, k) → k ≠ [] ∧ n.trail = []

end Numeral

/-! ## Lemmas -/

theorem digitChar_isDig : ∀ d : Fin 10, isDig (digitChar d) = true := by decide
theorem digitChar_val : ∀ d : Fin 10, (digitChar d).toNat - 48 = d.val := by decide
theorem digitChar_ne : ∀ d : Fin 10, digitChar d ≠ '.' ∧ digitChar d ≠ 'e' ∧ digitChar d ≠ '-' ∧
    digitChar d ≠ '+' := by decide

theorem natOfDigits_fold (ds : List (Fin 10)) : ∀ a : Nat,
    (ds.map digitChar).foldl (fun acc c => 10 * acc + (c.toNat - 48)) a =
      a * 10 ^ ds.length + numberOf ds := by
  induction ds with
  | nil => intro a; simp [numberOf]
  | cons d ds ih =>
    intro a
    rw [List.map_cons, List.foldl_cons, ih, digitChar_val]
    unfold numberOf
    rw [List.reverse_cons, List.map_append, Nat.ofDigits_append]
    simp only [List.map_cons, List.map_nil, Nat.ofDigits_singleton, List.length_map, List.length_reverse,
      List.length_cons]
    ring

theorem natOfDigits_digits (ds : List (Fin 10)) : natOfDigits (ds.map digitChar) = numberOf ds := by
  unfold natOfDigits
  rw [natOfDigits_fold]
  simp

theorem digits_all (ds : List (Fin 10)) : (ds.map digitChar).all isDig = true := by
  rw [List.all_eq_true]
  intro c hc
  obtain ⟨d, _, rfl⟩ := List.mem_map.1 hc
  exact digitChar_isDig d

theorem pyInt_digits (ds : List (Fin 10)) (h : ds ≠ []) : pyInt (ds.map digitChar) = .ok (numberOf ds : Int) := by
  obtain ⟨d, l, rfl⟩ := List.exists_cons_of_ne_nil h
  obtain ⟨_, _, h3, h4⟩ := digitChar_ne d
  have ha := digits_all (d :: l)
  have hn := natOfDigits_digits (d :: l)
  rw [List.map_cons] at ha hn ⊢
  unfold pyInt
  simp only [h3, h4, if_false, ha, if_true, hn]

theorem pyFloat_int (ip : List (Fin 10)) (h : ip ≠ []) : pyFloat (ip.map digitChar) = .ok (numberOf ip : Rat) := by
  have hp : ∀ c ∈ ip.map digitChar, (decide (c ≠ '.')) = true := by
    intro c hc
    obtain ⟨d, _, rfl⟩ := List.mem_map.1 hc
    simpa using (digitChar_ne d).1
  have h1 := List.takeWhile_append_of_pos (l₂ := []) hp
  rw [List.append_nil, List.takeWhile_nil, List.append_nil] at h1
  have h2 := List.dropWhile_append_of_pos (l₂ := []) hp
  rw [List.append_nil, List.dropWhile_nil] at h2
  unfold pyFloat
  simp only [h1, h2, List.map_eq_nil_iff, h, if_false, natOfDigits_digits]

theorem pyFloat_frac (ip fp : List (Fin 10)) (h : ip ++ fp ≠ []) :
    pyFloat (ip.map digitChar ++ '.' :: fp.map digitChar) =
      .ok ((numberOf ip : Rat) + (numberOf fp : Rat) / 10 ^ fp.length) := by
  have hp : ∀ c ∈ ip.map digitChar, (decide (c ≠ '.')) = true := by
    intro c hc
    obtain ⟨d, _, rfl⟩ := List.mem_map.1 hc
    simpa using (digitChar_ne d).1
  have h1 : (ip.map digitChar ++ '.' :: fp.map digitChar).takeWhile (· ≠ '.') = ip.map digitChar := by
    rw [List.takeWhile_append_of_pos hp]
    simp
  have h2 : (ip.map digitChar ++ '.' :: fp.map digitChar).dropWhile (· ≠ '.') = '.' :: fp.map digitChar := by
    rw [List.dropWhile_append_of_pos hp]
    simp
  have h3 : ¬ ('.' ∈ fp.map digitChar ∨ ip.map digitChar ++ fp.map digitChar = []) := by
    rintro (h' | h')
    · obtain ⟨d, _, hd⟩ := List.mem_map.1 h'
      exact (digitChar_ne d).1 hd
    · rw [← List.map_append, List.map_eq_nil_iff] at h'
      exact h h'
  unfold pyFloat
  simp only [h1, h2, h3, if_false, natOfDigits_digits, List.length_map]

theorem digitLoop_digits (ds : List (Fin 10)) (r : List Char) : ∀ num : List Char,
    digitLoop (ds.map digitChar ++ r) num = digitLoop r (num ++ ds.map digitChar) := by
  induction ds with
  | nil => intro num; simp
  | cons d ds ih =>
    intro num
    rw [List.map_cons, List.cons_append, digitLoop, if_pos (digitChar_isDig d), ih, List.append_assoc]
    rfl

theorem digitLoop_point (r num : List Char) : digitLoop ('.' :: r) num = digitLoop r (num ++ ['.']) := by
  rw [digitLoop, if_neg (by decide), if_pos rfl]

theorem digitLoop_junk (j r : List Char) (hj : Junk j) : ∀ num : List Char,
    digitLoop (j ++ r) num = digitLoop r num := by
  induction j with
  | nil => intro num; rfl
  | cons c j ih =>
    intro num
    obtain ⟨h1, h2, h3⟩ := hj c List.mem_cons_self
    rw [List.cons_append, digitLoop, if_neg (by rw [h1]; simp), if_neg h2, if_neg h3,
      ih (fun c hc => hj c (List.mem_cons_of_mem _ hc))]

theorem digitLoop_exp (plus : Bool) (k : List (Fin 10)) (hk : k ≠ []) (num : List Char) :
    digitLoop ('e' :: (if plus then '+' else '-') :: k.map digitChar) num =
      .ok (num, expFactor (some (plus, k))) := by
  rw [digitLoop, if_neg (by decide), if_neg (by decide), if_pos rfl, List.drop_one, List.tail_cons, pyInt_digits k hk]
  cases plus
  · simp only [Bool.false_eq_true, if_false, expFactor]
    rw [if_neg (by decide), zpow_natCast]
  · simp only [if_true, expFactor]
    rw [zpow_natCast]

/-- the loop on a valid numeral: it collects exactly the mantissa -/
theorem digitLoop_text (n : Numeral) (h : n.Valid) :
    digitLoop n.text [] = .ok (n.int.map digitChar ++ (if n.point then '.' :: n.frac.map digitChar else []),
      expFactor n.exp) := by
  unfold Numeral.text
  rw [digitLoop_junk _ _ h.lead]
  have hs : ∀ r num, digitLoop ((if n.neg then ['-'] else []) ++ r) num = digitLoop r num := by
    intro r num
    refine digitLoop_junk _ _ ?_ num
    intro c hc
    cases hn : n.neg
    · rw [hn] at hc; cases hc
    · rw [hn, if_pos rfl, List.mem_singleton] at hc
      subst hc
      decide
  rw [hs, digitLoop_digits, List.nil_append]
  have hp : ∀ r num, digitLoop ((if n.point then '.' :: n.frac.map digitChar else []) ++ r) num =
      digitLoop r (num ++ (if n.point then '.' :: n.frac.map digitChar else [])) := by
    intro r num
    cases n.point
    · simp
    · simp only [if_true]
      rw [List.cons_append, digitLoop_point, digitLoop_digits, List.append_assoc]
      rfl
  rw [hp]
  cases he : n.exp with
  | none =>
    unfold expText expFactor
    have := digitLoop_junk n.trail [] h.trail (n.int.map digitChar ++ (if n.point then '.' :: n.frac.map digitChar else []))
    rw [List.append_nil] at this
    rw [List.nil_append, this]
    rfl
  | some pk =>
    obtain ⟨p, k⟩ := pk
    obtain ⟨hk, ht⟩ := h.exp p k he
    rw [ht, List.append_nil]
    exact digitLoop_exp p k hk _

theorem text_head (n : Numeral) (h : n.Valid) : n.text.head? = some '-' ↔ n.neg = true := by
  unfold Numeral.text
  cases hn : n.neg
  · simp only [Bool.false_eq_true, if_false, List.nil_append, iff_false]
    cases hl : n.lead with
    | cons c l =>
      have := h.noMinus
      rw [hl] at this
      simpa using this
    | nil =>
      cases hi : n.int with
      | cons d ds =>
        simp only [List.nil_append, List.map_cons, List.cons_append, List.head?_cons]
        intro hc
        injection hc with hc
        exact (digitChar_ne d).2.2.1 hc
      | nil =>
        have hd := h.digits
        rw [hi, List.nil_append] at hd
        have hp : n.point = true := by
          cases hp : n.point
          · exact absurd (h.frac hp) hd
          · rfl
        rw [hp]
        simp only [List.nil_append, List.map_nil, if_true, List.cons_append, List.head?_cons]
        decide
  · rw [h.sign hn]
    simp

/-! ## C44 -/

/-- **C44.** Every numeral of the grammar is read back as its exact value. -/
theorem C44_numeral_value (n : Numeral) (h : n.Valid) : digitString n.text = .ok (some n.value) := by
  unfold digitString
  rw [digitLoop_text n h]
  have hne : n.int.map digitChar ++ (if n.point then '.' :: n.frac.map digitChar else []) ≠ [] := by
    cases hp : n.point
    · have hd := h.digits
      rw [h.frac hp, List.append_nil] at hd
      simp [hd]
    · simp
  have hfl : pyFloat (n.int.map digitChar ++ (if n.point then '.' :: n.frac.map digitChar else [])) =
      .ok ((numberOf n.int : Rat) + (numberOf n.frac : Rat) / 10 ^ n.frac.length) := by
    cases hp : n.point
    · have hd := h.digits
      rw [h.frac hp, List.append_nil] at hd
      simp only [Bool.false_eq_true, if_false, List.append_nil]
      rw [pyFloat_int _ hd, h.frac hp]
      simp [numberOf]
    · simp only [if_true]
      exact pyFloat_frac _ _ h.digits
  simp only [hne, if_false, hfl, text_head n h]
  unfold Numeral.value
  cases n.neg
  · simp only [Bool.false_eq_true, if_false]
    rw [one_mul, mul_comm]
  · simp only [if_true]
    congr 2
    ring

/-- **C44.** Tokens without a digit or point are not numbers. -/
theorem C44_no_number (s : List Char) (h : Junk s) : digitString s = .ok none := by
  unfold digitString
  have := digitLoop_junk s [] h []
  rw [List.append_nil] at this
  rw [this]
  rfl

/-! ## C69 -/

/-- **C69 is violated** by exponents without a sign: the first digit of the exponent is taken for the
sign, so that `5e15` is read as 5·10⁻⁵. -/
theorem C69_unsigned_exponent_violated (ip k : List (Fin 10)) (d : Fin 10) (hi : ip ≠ []) (hk : k ≠ []) :
    digitString (ip.map digitChar ++ 'e' :: digitChar d :: k.map digitChar) =
      .ok (some ((numberOf ip : Rat) / 10 ^ numberOf k)) := by
  have hl : digitLoop (ip.map digitChar ++ 'e' :: digitChar d :: k.map digitChar) [] =
      .ok (ip.map digitChar, 1 / 10 ^ numberOf k) := by
    rw [digitLoop_digits, List.nil_append, digitLoop, if_neg (by decide), if_neg (by decide), if_pos rfl,
      List.drop_one, List.tail_cons, pyInt_digits k hk]
    simp only [(digitChar_ne d).2.2.2, if_false, zpow_natCast]
  have hh : (ip.map digitChar ++ 'e' :: digitChar d :: k.map digitChar).head? ≠ some '-' := by
    obtain ⟨a, l, rfl⟩ := List.exists_cons_of_ne_nil hi
    simp only [List.map_cons, List.cons_append, List.head?_cons, ne_eq, Option.some.injEq]
    exact (digitChar_ne a).2.2.1
  unfold digitString
  simp only [hl, List.map_eq_nil_iff, hi, if_false, hh, pyFloat_int ip hi]
  congr 2
  rw [one_div, mul_comm, div_eq_mul_inv]

/-- **C69 is violated** by characters inside a number: they are passed over and the digits on both
sides are joined, so that `1E5` is read as 15 and `3-4` as 34. -/
theorem C69_inner_characters_violated (a b : List (Fin 10)) (j : List Char) (ha : a ≠ []) (hj : Junk j) :
    digitString (a.map digitChar ++ (j ++ b.map digitChar)) = .ok (some (numberOf (a ++ b) : Rat)) := by
  have hl : digitLoop (a.map digitChar ++ (j ++ b.map digitChar)) [] = .ok ((a ++ b).map digitChar, 1) := by
    have := digitLoop_digits b [] (a.map digitChar)
    rw [List.append_nil] at this
    rw [digitLoop_digits, List.nil_append, digitLoop_junk _ _ hj, this, List.map_append]
    rfl
  have hh : (a.map digitChar ++ (j ++ b.map digitChar)).head? ≠ some '-' := by
    obtain ⟨d, l, rfl⟩ := List.exists_cons_of_ne_nil ha
    simp only [List.map_cons, List.cons_append, List.head?_cons, ne_eq, Option.some.injEq]
    exact (digitChar_ne d).2.2.1
  have hne : a ++ b ≠ [] := by simp [ha]
  unfold digitString
  simp only [hl, List.map_eq_nil_iff, hne, if_false, hh, pyFloat_int _ hne, one_mul]

/-- **C69 is violated** by a sign that is not the first character of the token: it is lost, so that
`[-5` is read as 5. -/
theorem C69_sign_lost_violated (lead : List Char) (ip : List (Fin 10)) (hi : ip ≠ []) (hl : Junk lead)
    (hne : lead ≠ []) (hm : lead.head? ≠ some '-') :
    digitString (lead ++ '-' :: ip.map digitChar) = .ok (some (numberOf ip : Rat)) := by
  have hj : Junk (lead ++ ['-']) := by
    intro c hc
    rcases List.mem_append.1 hc with h | h
    · exact hl c h
    · rw [List.mem_singleton] at h
      subst h
      decide
  have := C44_numeral_value { lead := lead ++ ['-'], int := ip } {
    digits := by simpa using hi
    frac := fun _ => rfl
    lead := hj
    trail := fun c hc => by cases hc
    noMinus := by
      obtain ⟨c, l, rfl⟩ := List.exists_cons_of_ne_nil hne
      simpa using hm
    sign := fun h => by cases h
    exp := fun p k h => by cases h }
  simpa [Numeral.text, Numeral.value, expText, expFactor, numberOf] using this

/-- **C69, the remainder that holds:** a second point, a token with a point but no digits, text after an
exponent and an exponent of one digit without sign are rejected with ValueError. -/
theorem C69_rejected_partial :
    (∀ (a b c : List (Fin 10)), digitString (a.map digitChar ++ '.' :: (b.map digitChar ++ '.' :: c.map digitChar)) =
      .error .value) ∧
    (∀ j j' : List Char, Junk j → Junk j' → digitString (j ++ '.' :: j') = .error .value) ∧
    (∀ (a k : List (Fin 10)) (s c : Char) (r : List Char), k ≠ [] → isDig c = false →
      digitString (a.map digitChar ++ 'e' :: s :: (k.map digitChar ++ c :: r)) = .error .value) ∧
    (∀ (a : List (Fin 10)) (c : Char), digitString (a.map digitChar ++ ['e', c]) = .error .value) := by
  refine ⟨?_, ?_, ?_, ?_⟩
  · intro a b c
    have hl : digitLoop (a.map digitChar ++ '.' :: (b.map digitChar ++ '.' :: c.map digitChar)) [] =
        .ok (a.map digitChar ++ '.' :: (b.map digitChar ++ '.' :: c.map digitChar), 1) := by
      have h3 := digitLoop_digits c []
      simp only [List.append_nil] at h3
      rw [digitLoop_digits, digitLoop_point, digitLoop_digits, digitLoop_point, h3]
      simp [digitLoop]
    have hp : ∀ x ∈ a.map digitChar, (decide (x ≠ '.')) = true := by
      intro x hx
      obtain ⟨d, _, rfl⟩ := List.mem_map.1 hx
      simpa using (digitChar_ne d).1
    have h2 : (a.map digitChar ++ '.' :: (b.map digitChar ++ '.' :: c.map digitChar)).dropWhile (· ≠ '.') =
        '.' :: (b.map digitChar ++ '.' :: c.map digitChar) := by
      rw [List.dropWhile_append_of_pos hp]
      simp
    have hf : pyFloat (a.map digitChar ++ '.' :: (b.map digitChar ++ '.' :: c.map digitChar)) = .error .value := by
      unfold pyFloat
      simp only [h2]
      rw [if_pos]
      left
      simp
    unfold digitString
    have hne : a.map digitChar ++ '.' :: (b.map digitChar ++ '.' :: c.map digitChar) ≠ [] := by simp
    simp only [hl, hne, if_false, hf]
  · intro j j' hj hj'
    have hl : digitLoop (j ++ '.' :: j') [] = .ok (['.'], 1) := by
      have h3 := digitLoop_junk j' [] hj' ['.']
      rw [List.append_nil] at h3
      rw [digitLoop_junk _ _ hj, digitLoop_point, List.nil_append, h3]
      rfl
    have hf : pyFloat ['.'] = .error .value := by decide
    unfold digitString
    simp only [hl, List.cons_ne_nil, if_false, hf]
  · intro a k s c r hk hc
    have hi : pyInt (k.map digitChar ++ c :: r) = .error .value := by
      have hall : ∀ l : List Char, (l ++ c :: r).all isDig = false := by
        intro l
        rw [List.all_eq_false]
        exact ⟨c, by simp, by rw [hc]; simp⟩
      cases k with
      | nil => exact absurd rfl hk
      | cons d k =>
        obtain ⟨_, _, h3, h4⟩ := digitChar_ne d
        have ha := hall ((d :: k).map digitChar)
        rw [List.map_cons, List.cons_append] at ha ⊢
        unfold pyInt
        simp only [h3, h4, if_false, ha, Bool.false_eq_true]
    unfold digitString
    rw [digitLoop_digits, digitLoop, if_neg (by decide), if_neg (by decide), if_pos rfl, List.drop_one,
      List.tail_cons, hi]
  · intro a c
    unfold digitString
    rw [digitLoop_digits, digitLoop, if_neg (by decide), if_neg (by decide), if_pos rfl]
    rfl

/-! ## C70 -/

/-- the token that announces an element -/
def nameTok (name : String) : Tok := ("mpc." ++ name).toList

/-- the parts of a case file: a line that announces nothing; a line with a number; a matrix: the line
with its name, its rows (the numbers and what follows them on the line) and the line that ends it -/
inductive Block
  | other (line : List Tok)
  | scalar (name : String) (mid : List Tok) (n : Numeral) (tail : List Tok)
  | matrix (name : String) (head : List Tok) (rows : List (List Numeral × List Tok)) (close : List Tok)

/-- the lines of a part -/
def Block.lines : Block → List (List Tok)
  | .other line => [line]
  | .scalar name mid n tail => [nameTok name :: (mid ++ n.text :: tail)]
  | .matrix name head rows close =>
    (nameTok name :: head) :: (rows.map (fun r => r.1.map Numeral.text ++ r.2) ++ [close])

/-- what a part stores -/
def Block.stores : Block → Option (String × MatVal)
  | .other _ => none
  | .scalar name _ n _ => some (name, .num n.value)
  | .matrix name _ rows _ => some (name, .mat (rows.map (fun r => r.1.map Numeral.value)))

/-- parts the reader understands: other lines do not begin with the name of an element; a number is the
first on its line; matrices begin on a new line, have the number of columns of their element (further
tokens are allowed) and end with a shorter line -/
inductive Block.Ok : Block → Prop
  | blank : Block.Ok (.other [])
  | other (t : Tok) (ts : List Tok) :
      (∀ name ∈ ["version", "baseMVA", "bus", "gen", "branch", "gencost"],
        t.takeWhile (· ≠ '=') ≠ nameTok name) → Block.Ok (.other (t :: ts))
  | scalar (name : String) (mid : List Tok) (n : Numeral) (tail : List Tok) :
      name ∈ ["version", "baseMVA"] → (∀ t ∈ mid, Junk t) → n.Valid → Block.Ok (.scalar name mid n tail)
  | matrix (name : String) (cols : Nat) (head : List Tok) (rows : List (List Numeral × List Tok))
      (close : List Tok) :
      (name, cols) ∈ [("bus", 13), ("gen", 21), ("branch", 13), ("gencost", 6)] → head.length < cols →
      (∀ r ∈ rows, r.1.length = cols ∧ ∀ n ∈ r.1, n.Valid) → close.length < cols →
      Block.Ok (.matrix name head rows close)

/-- the value of a name in the saved dictionary -/
def savedValue (d : List (String × MatVal)) (name : String) : Option MatVal :=
  (d.find? (fun e => e.1 = name)).map (·.2)

/-- the value of a name according to the file: the last part with that name -/
def fileValue (blocks : List Block) (name : String) : Option MatVal :=
  ((blocks.filterMap Block.stores).filter (fun e => e.1 = name)).getLast?.map (·.2)

theorem saved_set (d : List (String × MatVal)) (n m : String) (v : MatVal) :
    savedValue (matSet d n v) m = if m = n then some v else savedValue d m := by
  unfold savedValue matSet
  by_cases hm : m = n
  · subst hm
    rw [if_pos rfl]
    by_cases h : d.any (fun e => e.1 = m)
    · rw [if_pos h]
      have : ∀ d : List (String × MatVal), d.any (fun e => e.1 = m) = true →
          ((d.map (fun e => if e.1 = m then (m, v) else e)).find? (fun e => e.1 = m)).map (·.2) = some v := by
        intro d
        induction d with
        | nil => intro h; cases h
        | cons e d ih =>
          intro h
          rw [List.map_cons]
          by_cases he : e.1 = m
          · simp [he]
          · rw [List.any_cons] at h
            have h : d.any (fun e => decide (e.1 = m)) = true := by simpa [he] using h
            rw [List.find?_cons_of_neg (by simp [he])]
            exact ih h
      exact this d h
    · rw [if_neg h, List.find?_append]
      have : d.find? (fun e => decide (e.1 = m)) = none := by
        rw [List.find?_eq_none]
        intro x hx hx'
        exact h (List.any_eq_true.2 ⟨x, hx, hx'⟩)
      rw [this]
      simp
  · rw [if_neg hm]
    by_cases h : d.any (fun e => e.1 = n)
    · rw [if_pos h]
      congr 1
      have : ∀ d : List (String × MatVal),
          (d.map (fun e => if e.1 = n then (n, v) else e)).find? (fun e => e.1 = m) = d.find? (fun e => e.1 = m) := by
        intro d
        induction d with
        | nil => rfl
        | cons e d ih =>
          rw [List.map_cons]
          by_cases he : e.1 = n
          · have hem : ¬ e.1 = m := fun h => hm (h.symm.trans he)
            rw [if_pos he, List.find?_cons_of_neg (by simpa using fun h : n = m => hm h.symm),
              List.find?_cons_of_neg (by simpa using hem)]
            exact ih
          · rw [if_neg he]
            by_cases hem : e.1 = m
            · rw [List.find?_cons_of_pos (by simpa using hem), List.find?_cons_of_pos (by simpa using hem)]
            · rw [List.find?_cons_of_neg (by simpa using hem), List.find?_cons_of_neg (by simpa using hem)]
              exact ih
      exact this d
    · rw [if_neg h, List.find?_append]
      have : [(n, v)].find? (fun e => decide (e.1 = m)) = none := by
        rw [List.find?_cons_of_neg (by simpa using fun h : n = m => hm h.symm)]
        rfl
      rw [this, Option.or_none]

theorem readValues_numerals (ns : List Numeral) (hv : ∀ n ∈ ns, n.Valid) (rest : List Tok) :
    readValues ns.length (ns.map Numeral.text ++ rest) = .ok (ns.map Numeral.value) := by
  induction ns with
  | nil => rfl
  | cons n ns ih =>
    rw [List.length_cons, List.map_cons, List.cons_append, readValues, C44_numeral_value n (hv n List.mem_cons_self)]
    simp only
    rw [ih (fun m hm => hv m (List.mem_cons_of_mem _ hm))]
    rfl

theorem readRows_block (cols : Nat) (rows : List (List Numeral × List Tok)) (close : List Tok)
    (after : List (List Tok)) (hr : ∀ r ∈ rows, r.1.length = cols ∧ ∀ n ∈ r.1, n.Valid)
    (hc : close.length < cols) :
    readRows cols (rows.map (fun r => r.1.map Numeral.text ++ r.2) ++ close :: after) =
      .ok (rows.map (fun r => r.1.map Numeral.value), after) := by
  induction rows with
  | nil =>
    rw [List.map_nil, List.nil_append, readRows, if_neg (by omega)]
    rfl
  | cons r rows ih =>
    obtain ⟨h1, h2⟩ := hr r List.mem_cons_self
    rw [List.map_cons, List.cons_append, readRows, if_pos (by
      rw [List.length_append, List.length_map]
      omega)]
    have := readValues_numerals r.1 h2 r.2
    rw [h1] at this
    simp only [this]
    rw [ih (fun r hr' => hr r (List.mem_cons_of_mem _ hr'))]
    rfl

theorem firstNumber_mid (mid : List Tok) (n : Numeral) (tail : List Tok) (hm : ∀ t ∈ mid, Junk t) (hn : n.Valid) :
    firstNumber (mid ++ n.text :: tail) = .ok n.value := by
  induction mid with
  | nil =>
    rw [List.nil_append, firstNumber, C44_numeral_value n hn]
  | cons t mid ih =>
    rw [List.cons_append, firstNumber, C44_no_number t (hm t List.mem_cons_self)]
    exact ih (fun t ht => hm t (List.mem_cons_of_mem _ ht))

theorem findElement_none (t : Tok)
    (h : ∀ name ∈ ["version", "baseMVA", "bus", "gen", "branch", "gencost"], headText t ≠ nameTok name) :
    findElement (headText t) = none := by
  unfold findElement
  rw [List.find?_eq_none]
  intro e he hh
  have hh : headText t = nameTok e.1 := by simpa [nameTok] using hh
  refine h e.1 ?_ hh
  unfold matElements at he
  exact List.mem_map_of_mem (f := fun e : String × Nat => e.1) he

/-- one part of the file -/
theorem matLoop_block (b : Block) (hb : b.Ok) (rest : List (List Tok)) (fuel : Nat)
    (d : List (String × MatVal)) (hf : b.lines.length + rest.length ≤ fuel) :
    ∃ f', rest.length ≤ f' ∧ matLoop fuel (b.lines ++ rest) d =
      matLoop f' rest (match b.stores with | none => d | some nv => matSet d nv.1 nv.2) := by
  cases hb with
  | blank =>
    simp only [Block.lines, List.length_cons, List.length_nil] at hf
    obtain ⟨f, rfl⟩ : ∃ f, fuel = f + 1 := ⟨fuel - 1, by omega⟩
    exact ⟨f, by omega, rfl⟩
  | other t ts ht =>
    simp only [Block.lines, List.length_cons, List.length_nil] at hf
    obtain ⟨f, rfl⟩ : ∃ f, fuel = f + 1 := ⟨fuel - 1, by omega⟩
    refine ⟨f, by omega, ?_⟩
    have := findElement_none t ht
    simp only [Block.lines, List.cons_append, List.nil_append, matLoop, this, Block.stores]
  | scalar name mid n tail hname hmid hn =>
    simp only [Block.lines, List.length_cons, List.length_nil] at hf
    obtain ⟨f, rfl⟩ : ∃ f, fuel = f + 1 := ⟨fuel - 1, by omega⟩
    refine ⟨f, by omega, ?_⟩
    have h1 : findElement (headText (nameTok name)) = some (name, 1) := by
      simp only [List.mem_cons, List.not_mem_nil, or_false] at hname
      rcases hname with rfl | rfl <;> decide
    have h2 : '=' ∉ nameTok name := by
      simp only [List.mem_cons, List.not_mem_nil, or_false] at hname
      rcases hname with rfl | rfl <;> decide
    simp only [Block.lines, List.cons_append, List.nil_append, matLoop, h1, if_true, h2, if_false,
      firstNumber_mid mid n tail hmid hn, Block.stores]
  | matrix name cols head rows close hname hhead hrows hclose =>
    simp only [Block.lines, List.length_cons, List.length_append, List.length_map, List.length_nil] at hf
    obtain ⟨f, rfl⟩ : ∃ f, fuel = f + 1 := ⟨fuel - 1, by omega⟩
    refine ⟨f, by omega, ?_⟩
    have h1 : findElement (headText (nameTok name)) = some (name, cols) ∧ cols ≠ 1 := by
      simp only [List.mem_cons, List.not_mem_nil, or_false, Prod.mk.injEq] at hname
      rcases hname with ⟨rfl, rfl⟩ | ⟨rfl, rfl⟩ | ⟨rfl, rfl⟩ | ⟨rfl, rfl⟩ <;> decide
    have h2 : readMatrix cols (nameTok name :: head)
        (rows.map (fun r => r.1.map Numeral.text ++ r.2) ++ close :: rest) =
        .ok (rows.map (fun r => r.1.map Numeral.value), rest) := by
      unfold readMatrix
      rw [if_neg (by rw [List.length_cons]; omega)]
      exact readRows_block cols rows close rest hrows hclose
    simp only [Block.lines, List.cons_append, List.append_assoc, List.nil_append, matLoop, h1.1, h1.2, if_false,
      h2, Block.stores]

/-- **C70.** Every file made of parts that the reader understands is read without exception, and the
saved dictionary holds, for each name, exactly the numbers of the file's last part with that name. -/
theorem C70_file_round_trip (blocks : List Block) (hb : ∀ b ∈ blocks, b.Ok) :
    ∃ d, buildMat (blocks.flatMap Block.lines) = .ok d ∧
      ∀ name, savedValue d name = fileValue blocks name := by
  have key : ∀ (blocks : List Block), (∀ b ∈ blocks, b.Ok) → ∀ (fuel : Nat) (d : List (String × MatVal)),
      (blocks.flatMap Block.lines).length ≤ fuel →
      ∃ d', matLoop fuel (blocks.flatMap Block.lines) d = .ok d' ∧
        ∀ name, savedValue d' name = (fileValue blocks name).or (savedValue d name) := by
    intro blocks
    induction blocks with
    | nil =>
      intro _ fuel d _
      exact ⟨d, by cases fuel <;> rfl, fun name => rfl⟩
    | cons b blocks ih =>
      intro hb fuel d hf
      rw [List.flatMap_cons] at hf ⊢
      rw [List.length_append] at hf
      obtain ⟨f', h1, h2⟩ := matLoop_block b (hb b List.mem_cons_self) (blocks.flatMap Block.lines) fuel d hf
      rw [h2]
      obtain ⟨d', h3, h4⟩ := ih (fun b hb' => hb b (List.mem_cons_of_mem _ hb')) f' _ h1
      refine ⟨d', h3, fun name => ?_⟩
      rw [h4]
      unfold fileValue
      rw [List.filterMap_cons]
      cases hs : b.stores with
      | none => rfl
      | some nv =>
        simp only
        rw [saved_set, List.filter_cons]
        by_cases hn : name = nv.1
        · subst hn
          simp only [decide_true, if_true]
          rw [List.getLast?_cons]
          cases ((blocks.filterMap Block.stores).filter (fun e => e.1 = nv.1)).getLast? <;> rfl
        · have hn' : ¬ nv.1 = name := fun h => hn h.symm
          simp only [hn, hn', decide_false, Bool.false_eq_true, if_false]
  obtain ⟨d, h1, h2⟩ := key blocks hb _ [] (le_refl _)
  refine ⟨d, h1, fun name => ?_⟩
  rw [h2]
  cases fileValue blocks name <;> rfl

/-- **C70.** A matrix whose values begin on the line with its name is rejected with ValueError. -/
theorem C70_values_on_first_line (name : String) (cols : Nat) (ts : List Tok) (rest : List (List Tok))
    (hn : (name, cols) ∈ [("bus", 13), ("gen", 21), ("branch", 13), ("gencost", 6)]) (hl : cols ≤ ts.length) :
    buildMat ((nameTok name :: ts) :: rest) = .error .value := by
  have h1 : findElement (headText (nameTok name)) = some (name, cols) ∧ cols ≠ 1 := by
    simp only [List.mem_cons, List.not_mem_nil, or_false, Prod.mk.injEq] at hn
    rcases hn with ⟨rfl, rfl⟩ | ⟨rfl, rfl⟩ | ⟨rfl, rfl⟩ | ⟨rfl, rfl⟩ <;> decide
  have h2 : digitString (nameTok name) = .error .value := by
    simp only [List.mem_cons, List.not_mem_nil, or_false, Prod.mk.injEq] at hn
    rcases hn with ⟨rfl, rfl⟩ | ⟨rfl, rfl⟩ | ⟨rfl, rfl⟩ | ⟨rfl, rfl⟩ <;> decide
  have h3 : readMatrix cols (nameTok name :: ts) rest = .error .value := by
    unfold readMatrix
    rw [if_pos (by rw [List.length_cons]; omega), skipToNumber, h2]
  unfold buildMat
  simp only [List.length_cons, matLoop, h1.1, h1.2, if_false, h3]

/-- **C70.** A matrix that is not closed before the end of the file raises IndexError. -/
theorem C70_unclosed (name : String) (cols : Nat) (head : List Tok) (rows : List (List Numeral × List Tok))
    (hn : (name, cols) ∈ [("bus", 13), ("gen", 21), ("branch", 13), ("gencost", 6)]) (hh : head.length < cols)
    (hr : ∀ r ∈ rows, r.1.length = cols ∧ ∀ n ∈ r.1, n.Valid) :
    buildMat ((nameTok name :: head) :: rows.map (fun r => r.1.map Numeral.text ++ r.2)) = .error .index := by
  have h1 : findElement (headText (nameTok name)) = some (name, cols) ∧ cols ≠ 1 := by
    simp only [List.mem_cons, List.not_mem_nil, or_false, Prod.mk.injEq] at hn
    rcases hn with ⟨rfl, rfl⟩ | ⟨rfl, rfl⟩ | ⟨rfl, rfl⟩ | ⟨rfl, rfl⟩ <;> decide
  have h2 : readRows cols (rows.map (fun r => r.1.map Numeral.text ++ r.2)) = .error .index := by
    induction rows with
    | nil => rfl
    | cons r rows ih =>
      obtain ⟨g1, g2⟩ := hr r List.mem_cons_self
      rw [List.map_cons, readRows, if_pos (by
        rw [List.length_append, List.length_map]
        omega)]
      have := readValues_numerals r.1 g2 r.2
      rw [g1] at this
      simp only [this]
      rw [ih (fun r hr' => hr r (List.mem_cons_of_mem _ hr'))]
  have h3 : readMatrix cols (nameTok name :: head) (rows.map (fun r => r.1.map Numeral.text ++ r.2)) =
      .error .index := by
    unfold readMatrix
    rw [if_neg (by rw [List.length_cons]; omega), h2]
  unfold buildMat
  simp only [List.length_cons, matLoop, h1.1, h1.2, if_false, h3]

/-! ## C71 -/

/-- **C71 is violated** by every short line inside a matrix (a blank line, a comment): the matrix ends
there and the rows after it are lost without an error. -/
theorem C71_short_line_violated (name : String) (cols : Nat) (head short : List Tok)
    (rows : List (List Numeral × List Tok)) (later : List (List Tok))
    (hn : (name, cols) ∈ [("bus", 13), ("gen", 21), ("branch", 13), ("gencost", 6)]) (hh : head.length < cols)
    (hr : ∀ r ∈ rows, r.1.length = cols ∧ ∀ n ∈ r.1, n.Valid) (hs : short.length < cols)
    (hlater : ∀ l ∈ later, Block.Ok (.other l)) :
    ∃ d, buildMat ((nameTok name :: head) :: (rows.map (fun r => r.1.map Numeral.text ++ r.2) ++ short :: later)) =
        .ok d ∧ savedValue d name = some (.mat (rows.map (fun r => r.1.map Numeral.value))) := by
  obtain ⟨d, h1, h2⟩ := C70_file_round_trip (.matrix name head rows short :: later.map .other) (by
    intro b hb
    rcases List.mem_cons.1 hb with rfl | hb
    · exact .matrix name cols head rows short hn hh hr hs
    · obtain ⟨l, hl, rfl⟩ := List.mem_map.1 hb
      exact hlater l hl)
  have hlines : (Block.matrix name head rows short :: later.map .other).flatMap Block.lines =
      (nameTok name :: head) :: (rows.map (fun r => r.1.map Numeral.text ++ r.2) ++ short :: later) := by
    rw [List.flatMap_cons, List.flatMap_map]
    have : (later.flatMap fun a => (Block.other a).lines) = later := by
      simp only [Block.lines]
      exact List.flatMap_singleton' later
    rw [this]
    simp [Block.lines]
  rw [hlines] at h1
  refine ⟨d, h1, ?_⟩
  rw [h2]
  have hst : (Block.matrix name head rows short :: later.map .other).filterMap Block.stores =
      [(name, .mat (rows.map (fun r => r.1.map Numeral.value)))] := by
    have : ∀ l : List (List Tok), (l.map Block.other).filterMap Block.stores = [] := by
      intro l
      induction l with
      | nil => rfl
      | cons a l ih => exact ih
    rw [List.filterMap_cons]
    simp only [Block.stores, this]
  unfold fileValue
  rw [hst]
  simp

/-- tokens of a line -/
def toks (l : List String) : List Tok := l.map String.toList

/-- the instance: the second row is lost -/
example : buildMat [toks ["mpc.gencost", "=", "["], toks ["2", "0", "0", "2", "1.5", "0;"], [],
    toks ["2", "0", "0", "2", "20", "0;"], toks ["];"]] = .ok [("gencost", .mat [[2, 0, 0, 2, 3 / 2, 0]])] := by
  decide +kernel

/-- **C71 is violated** without a space before '=': the first row, which stands on the line of the name,
is silently dropped. -/
theorem C71_first_row_violated :
    buildMat [toks ["mpc.gencost=[2", "0", "0", "2", "7", "0;"], toks ["2", "0", "0", "2", "20", "0;"], toks ["];"]] =
      .ok [("gencost", .mat [[2, 0, 0, 2, 20, 0]])] := by
  decide +kernel

/-- **C71 is violated** for a row that follows the name without spaces (`mpc.gencost=[2 0 0 ...`): what is
stored are the `cols` numbers after the first one, and the first is lost. -/
theorem C71_first_number_violated (name : String) (cols : Nat) (t0 : Tok) (x : Rat) (ns : List Numeral) (tail : List Tok)
    (rows : List (List Numeral × List Tok)) (close : List Tok)
    (hn : (name, cols) ∈ [("bus", 13), ("gen", 21), ("branch", 13), ("gencost", 6)])
    (h0 : headText t0 = nameTok name) (hx : digitString t0 = .ok (some x)) (hl : ns.length = cols)
    (hv : ∀ n ∈ ns, n.Valid) (hr : ∀ r ∈ rows, r.1.length = cols ∧ ∀ n ∈ r.1, n.Valid) (hc : close.length < cols) :
    buildMat ((t0 :: (ns.map Numeral.text ++ tail)) :: (rows.map (fun r => r.1.map Numeral.text ++ r.2) ++ [close])) =
      .ok [(name, .mat (ns.map Numeral.value :: rows.map (fun r => r.1.map Numeral.value)))] := by
  have h1 : findElement (nameTok name) = some (name, cols) ∧ cols ≠ 1 := by
    simp only [List.mem_cons, List.not_mem_nil, or_false, Prod.mk.injEq] at hn
    rcases hn with ⟨rfl, rfl⟩ | ⟨rfl, rfl⟩ | ⟨rfl, rfl⟩ | ⟨rfl, rfl⟩ <;> decide
  have hrv := readValues_numerals ns hv tail
  rw [hl] at hrv
  have h3 : readMatrix cols (t0 :: (ns.map Numeral.text ++ tail))
      (rows.map (fun r => r.1.map Numeral.text ++ r.2) ++ [close]) =
      .ok (ns.map Numeral.value :: rows.map (fun r => r.1.map Numeral.value), []) := by
    unfold readMatrix
    rw [if_pos (by rw [List.length_cons, List.length_append, List.length_map]; omega), skipToNumber, hx]
    simp only
    rw [hrv]
    simp only
    rw [readRows_block cols rows close [] hr hc]
  unfold buildMat
  simp only [List.length_cons, matLoop, h0, h1.1, h1.2, if_false, h3]
  rfl

example : headText "mpc.bus=[1".toList = nameTok "bus" ∧ digitString "mpc.bus=[1".toList = .ok (some (1 / 10)) ∧
    buildMat [toks ["mpc.bus=[1", "3", "0", "0", "0", "0", "1", "1", "0", "345", "1", "1.1", "0.9", "7;"], toks ["];"]] =
      .ok [("bus", .mat [[3, 0, 0, 0, 0, 1, 1, 0, 345, 1, 11 / 10, 9 / 10, 7]])] := by
  decide +kernel

/-- **C71, the remainder that holds:** where reading succeeds, no row is invented: the rows stored for
the matrix that a line announces are read from consecutive lines that follow it, in order, each from the
first tokens of its line. -/
theorem C71_rows_from_lines_partial (cols : Nat) (lines : List (List Tok)) (rows : List (List Rat))
    (after : List (List Tok)) (h : readRows cols lines = .ok (rows, after)) :
    ∃ used close, lines = used ++ close :: after ∧ close.length < cols ∧ used.length = rows.length ∧
      ∀ (i : Nat) (l : List Tok) (r : List Rat), used[i]? = some l → rows[i]? = some r →
        r.length = cols ∧ ∀ (j : Nat) (x : Rat), r[j]? = some x → ∃ t, l[j]? = some t ∧ digitString t = .ok (some x) := by
  have hv : ∀ (n : Nat) (ts : List Tok) (r : List Rat), readValues n ts = .ok r → r.length = n ∧
      ∀ (j : Nat) (x : Rat), r[j]? = some x → ∃ t, ts[j]? = some t ∧ digitString t = .ok (some x) := by
    intro n
    induction n with
    | zero =>
      intro ts r h
      injection h with h
      subst h
      exact ⟨rfl, fun j x hx => by simp at hx⟩
    | succ n ih =>
      intro ts r h
      cases ts with
      | nil => cases h
      | cons t ts =>
        rw [readValues] at h
        cases ht : digitString t with
        | error e => rw [ht] at h; cases h
        | ok o =>
          rw [ht] at h
          cases o with
          | none => cases h
          | some x =>
            simp only at h
            cases hr : readValues n ts with
            | error e => rw [hr] at h; cases h
            | ok l =>
              rw [hr] at h
              injection h with h
              subst h
              obtain ⟨h1, h2⟩ := ih ts l hr
              refine ⟨by rw [List.length_cons, h1], ?_⟩
              intro j y hy
              cases j with
              | zero =>
                rw [List.getElem?_cons_zero] at hy
                injection hy with hy
                subst hy
                exact ⟨t, rfl, ht⟩
              | succ j =>
                rw [List.getElem?_cons_succ] at hy ⊢
                exact h2 j y hy
  induction lines generalizing rows with
  | nil => cases h
  | cons line rest ih =>
    rw [readRows] at h
    by_cases hc : cols ≤ line.length
    · rw [if_pos hc] at h
      cases hr : readValues cols line with
      | error e => rw [hr] at h; cases h
      | ok row =>
        rw [hr] at h
        simp only at h
        cases hrr : readRows cols rest with
        | error e => rw [hrr] at h; cases h
        | ok p =>
          obtain ⟨rows', after'⟩ := p
          rw [hrr] at h
          injection h with h
          injection h with h1 h2
          subst h1
          subst h2
          obtain ⟨used, close, g1, g2, g3, g4⟩ := ih rows' hrr
          refine ⟨line :: used, close, by rw [g1]; rfl, g2, by rw [List.length_cons, List.length_cons, g3], ?_⟩
          intro i l r hl hr'
          cases i with
          | zero =>
            rw [List.getElem?_cons_zero] at hl hr'
            injection hl with hl
            injection hr' with hr'
            subst hl
            subst hr'
            exact hv cols line row hr
          | succ i =>
            rw [List.getElem?_cons_succ] at hl hr'
            exact g4 i l r hl hr'
    · rw [if_neg hc] at h
      injection h with h
      injection h with h1 h2
      subst h1
      subst h2
      exact ⟨[], line, rfl, by omega, rfl, fun i l r hl => by simp at hl⟩

/-! ## Instances -/

/-- `-12.50e-2` -/
def numEx : Numeral :=
  { neg := true, int := [1, 2], point := true, frac := [5, 0], exp := some (false, [2]) }

example : numEx.Valid :=
  { digits := by decide
    frac := by decide
    lead := fun c hc => by cases hc
    trail := fun c hc => by cases hc
    noMinus := by decide
    sign := fun _ => rfl
    exp := fun p k h => by
      injection h with h
      injection h with h1 h2
      subst h2
      exact ⟨by decide, rfl⟩ }
example : numEx.text = "-12.50e-2".toList := by decide
example : numEx.value = -1 / 8 := by decide +kernel
example : digitString "5e15".toList = .ok (some (5 / 10 ^ 5)) := by decide +kernel
example : digitString "1E5".toList = .ok (some 15) := by decide +kernel
example : digitString "[-5".toList = .ok (some 5) := by decide +kernel
example : Junk "];".toList := by decide
example : Junk "E".toList := by decide

/-- a small file: a comment, the base power and a cost matrix -/
def fileEx : List Block :=
  [.other (toks ["%", "case"]), .scalar "baseMVA" (toks ["="]) { int := [1, 0, 0], trail := [';'] } [],
   .matrix "gencost" (toks ["=", "["])
    [([{ int := [2] }, { int := [0] }, { int := [0] }, { int := [2] }, { int := [7] }, { int := [0], trail := [';'] }],
      toks ["%", "unit", "1"])] (toks ["];"])]

example : fileEx.flatMap Block.lines = [toks ["%", "case"], toks ["mpc.baseMVA", "=", "100;"],
    toks ["mpc.gencost", "=", "["], toks ["2", "0", "0", "2", "7", "0;", "%", "unit", "1"], toks ["];"]] := by
  decide

example : buildMat (fileEx.flatMap Block.lines) =
    .ok [("baseMVA", .num 100), ("gencost", .mat [[2, 0, 0, 2, 7, 0]])] := by decide +kernel

theorem simple_valid (int : List (Fin 10)) (trail : List Char) (h : int ≠ []) (ht : Junk trail) :
    ({ int := int, trail := trail } : Numeral).Valid :=
  { digits := by simpa using h
    frac := fun _ => rfl
    lead := fun c hc => by cases hc
    trail := ht
    noMinus := by simp
    sign := fun h => by cases h
    exp := fun p k h => by cases h }

example : ∀ b ∈ fileEx, b.Ok := by
  intro b hb
  simp only [fileEx, List.mem_cons, List.not_mem_nil, or_false] at hb
  rcases hb with rfl | rfl | rfl
  · exact .other _ _ (by decide)
  · exact .scalar _ _ _ _ (by decide) (by decide) (simple_valid _ _ (by decide) (by decide))
  · refine .matrix _ 6 _ _ _ (by decide) (by decide) ?_ (by decide)
    intro r hr
    rw [List.mem_singleton] at hr
    subst hr
    refine ⟨rfl, ?_⟩
    intro n hn
    simp only [List.mem_cons, List.not_mem_nil, or_false] at hn
    rcases hn with rfl | rfl | rfl | rfl | rfl | rfl <;> exact simple_valid _ _ (by decide) (by decide)

end Pyensys
