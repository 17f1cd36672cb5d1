import Verif.Model.MatJson
import Verif.Props.MatFile
import Mathlib.Data.List.TakeWhile

/-!
# C156: numbers of the JSON converter

The small specification: decimal numerals of Python and their value.
-/

namespace Pyensys

/-- a decimal numeral: sign (`true`: minus), integer part, fraction, exponent (capital letter, sign, digits) -/
structure PyNum where
  sign : Option Bool := none
  int : List (Fin 10) := []
  point : Bool := false
  frac : List (Fin 10) := []
  exp : Option (Bool × Option Bool × List (Fin 10)) := none
  deriving DecidableEq, Repr

namespace PyNum

/-- the text of a sign -/
def signText : Option Bool → List Char
  | none => []
  | some true => ['-']
  | some false => ['+']

/-- the value of a sign -/
def signValue : Option Bool → Int
  | some true => -1
  | _ => 1

/-- the digits with the point -/
def mantissaText (n : PyNum) : List Char := n.int.map digitChar ++ (if n.point then '.' :: n.frac.map digitChar else [])

/-- the text of the exponent -/
def expText : Option (Bool × Option Bool × List (Fin 10)) → List Char
  | none => []
  | some (cap, s, k) => (if cap then 'E' else 'e') :: (signText s ++ k.map digitChar)

/-- the numeral as it stands in the file -/
def text (n : PyNum) : List Char := signText n.sign ++ (n.mantissaText ++ expText n.exp)

/-- the power of ten -/
def power (n : PyNum) : Int :=
  match n.exp with
  | none => 0
  | some (_, s, k) => signValue s * (numberOf k : Int)

/-- its value -/
def value (n : PyNum) : Rat :=
  (signValue n.sign : Rat) * (((numberOf n.int : Rat) + (numberOf n.frac : Rat) / 10 ^ n.frac.length) * (10 : Rat) ^ n.power)

/-- numerals: at least one digit, no fraction without a point, an exponent has digits -/
structure Valid (n : PyNum) : Prop where
  digits : n.int ++ n.frac ≠ []
  frac : n.point = false → n.frac = []
  exp : ∀ c s k, n.exp = some (c, s, k) → k ≠ []

/-- a whole number written without point and exponent -/
def Plain (n : PyNum) : Prop := n.point = false ∧ n.exp = none

instance (n : PyNum) : Decidable n.Plain := by unfold Plain; infer_instance

end PyNum

/-! ## Lemmas on characters -/

theorem digitChar_facts : ∀ d : Fin 10, digitChar d ≠ '.' ∧ digitChar d ≠ 'e' ∧ digitChar d ≠ 'E' ∧ digitChar d ≠ '-' ∧ digitChar d ≠ '+' ∧
    digitChar d ≠ ';' ∧ digitChar d ≠ 'm' ∧ digitChar d ≠ ']' ∧ digitChar d ≠ '\'' := by decide

theorem isDig_exists (c : Char) (h : isDig c = true) : ∃ d : Fin 10, digitChar d = c := by
  unfold isDig at h
  rw [decide_eq_true_eq, Char.le_def, Char.le_def] at h
  obtain ⟨h1, h2⟩ := h
  have a : 48 ≤ c.toNat := UInt32.le_iff_toNat_le.1 h1
  have b : c.toNat ≤ 57 := UInt32.le_iff_toNat_le.1 h2
  refine ⟨⟨c.toNat - 48, by omega⟩, ?_⟩
  show Char.ofNat (48 + (c.toNat - 48)) = c
  rw [show 48 + (c.toNat - 48) = c.toNat by omega, Char.ofNat_toNat]

theorem digits_exists (cs : List Char) (h : cs.all isDig = true) : ∃ ds : List (Fin 10), ds.map digitChar = cs := by
  induction cs with
  | nil => exact ⟨[], rfl⟩
  | cons c r ih =>
    rw [List.all_cons, Bool.and_eq_true] at h
    obtain ⟨d, hd⟩ := isDig_exists c h.1
    obtain ⟨ds, hds⟩ := ih h.2
    exact ⟨d :: ds, by rw [List.map_cons, hd, hds]⟩

theorem natOfDigits_of (ds : List (Fin 10)) : natOfDigits (ds.map digitChar) = numberOf ds := natOfDigits_digits ds

/-- `int` of a text: exactly the whole numbers with an optional sign -/
theorem pyInt_iff (cs : List Char) (z : Int) :
    pyInt cs = .ok z ↔ ∃ (s : Option Bool) (ds : List (Fin 10)), ds ≠ [] ∧ cs = PyNum.signText s ++ ds.map digitChar ∧ z = PyNum.signValue s * (numberOf ds : Int) := by
  constructor
  · intro h
    cases cs with
    | nil => cases h
    | cons c r =>
      unfold pyInt at h
      dsimp only at h
      split at h
      · rename_i hc
        split at h
        · rename_i hr
          cases h
          obtain ⟨ds, hds⟩ := digits_exists r hr.2
          refine ⟨some true, ds, ?_, ?_, ?_⟩
          · rintro rfl
            exact hr.1 hds.symm
          · rw [hc, hds]
            rfl
          · rw [← hds, natOfDigits_of]
            simp [PyNum.signValue]
        · cases h
      · split at h
        · rename_i hc
          split at h
          · rename_i hr
            cases h
            obtain ⟨ds, hds⟩ := digits_exists r hr.2
            refine ⟨some false, ds, ?_, ?_, ?_⟩
            · rintro rfl
              exact hr.1 hds.symm
            · rw [hc, hds]
              rfl
            · rw [← hds, natOfDigits_of]
              simp [PyNum.signValue]
          · cases h
        · split at h
          · rename_i hr
            cases h
            obtain ⟨ds, hds⟩ := digits_exists (c :: r) hr
            refine ⟨none, ds, ?_, ?_, ?_⟩
            · rintro rfl
              cases hds
            · rw [hds]
              rfl
            · rw [← hds, natOfDigits_of]
              simp [PyNum.signValue]
          · cases h
  · rintro ⟨s, ds, hd, rfl, rfl⟩
    have hne : ds.map digitChar ≠ [] := by simpa using hd
    have hall := digits_all ds
    cases s with
    | none =>
      show pyInt (ds.map digitChar) = _
      rw [pyInt_digits ds hd]
      simp [PyNum.signValue]
    | some b =>
      cases b
      · show pyInt ('+' :: ds.map digitChar) = _
        unfold pyInt
        dsimp only
        rw [if_neg (by decide), if_pos rfl, if_pos ⟨hne, hall⟩, natOfDigits_of]
        simp [PyNum.signValue]
      · show pyInt ('-' :: ds.map digitChar) = _
        unfold pyInt
        dsimp only
        rw [if_pos rfl, if_pos ⟨hne, hall⟩, natOfDigits_of]
        simp [PyNum.signValue]

theorem mantissa_all (n : PyNum) : n.mantissaText.all (fun c => isDig c || decide (c = '.')) = true := by
  unfold PyNum.mantissaText
  rw [List.all_append, Bool.and_eq_true]
  constructor
  · rw [List.all_eq_true]
    intro c hc
    obtain ⟨d, _, rfl⟩ := List.mem_map.1 hc
    rw [digitChar_isDig, Bool.true_or]
  · split
    · rw [List.all_cons, Bool.and_eq_true]
      refine ⟨by decide, ?_⟩
      rw [List.all_eq_true]
      intro c hc
      obtain ⟨d, _, rfl⟩ := List.mem_map.1 hc
      rw [digitChar_isDig, Bool.true_or]
    · rfl

theorem mantissa_value (n : PyNum) (h : n.Valid) :
    pyMantissa n.mantissaText = .ok ((numberOf n.int : Rat) + (numberOf n.frac : Rat) / 10 ^ n.frac.length) := by
  unfold pyMantissa
  rw [if_pos (mantissa_all n)]
  unfold PyNum.mantissaText
  cases hp : n.point with
  | false =>
    have hf := h.frac hp
    have hi : n.int ≠ [] := by
      have := h.digits
      rw [hf, List.append_nil] at this
      exact this
    rw [if_neg (by decide), List.append_nil, pyFloat_int n.int hi, hf]
    simp [numberOf]
  | true =>
    rw [if_pos rfl]
    exact pyFloat_frac n.int n.frac h.digits

theorem takeDrop_exp (a b : List Char) (ha : ∀ c ∈ a, c ≠ 'e' ∧ c ≠ 'E') (x : Char) (hx : x = 'e' ∨ x = 'E') :
    (a ++ x :: b).takeWhile (fun c => decide (c ≠ 'e' ∧ c ≠ 'E')) = a ∧ (a ++ x :: b).dropWhile (fun c => decide (c ≠ 'e' ∧ c ≠ 'E')) = x :: b := by
  induction a with
  | nil =>
    have : decide (x ≠ 'e' ∧ x ≠ 'E') = false := by
      rcases hx with rfl | rfl <;> decide
    simp [List.takeWhile_cons, List.dropWhile_cons]
    rcases hx with rfl | rfl <;> simp
  | cons c r ih =>
    have hc := ha c (List.mem_cons_self ..)
    obtain ⟨h1, h2⟩ := ih (fun c' h' => ha c' (List.mem_cons_of_mem _ h'))
    have : decide (c ≠ 'e' ∧ c ≠ 'E') = true := decide_eq_true hc
    rw [List.cons_append, List.takeWhile_cons, List.dropWhile_cons, this]
    exact ⟨by rw [if_pos rfl, h1], by rw [if_pos rfl, h2]⟩

theorem drop_none (a : List Char) (ha : ∀ c ∈ a, c ≠ 'e' ∧ c ≠ 'E') : a.dropWhile (fun c => decide (c ≠ 'e' ∧ c ≠ 'E')) = [] := by
  induction a with
  | nil => rfl
  | cons c r ih =>
    have hc := ha c (List.mem_cons_self ..)
    rw [List.dropWhile_cons, if_pos (decide_eq_true hc)]
    exact ih (fun c' h' => ha c' (List.mem_cons_of_mem _ h'))

theorem mantissa_chars (n : PyNum) : ∀ c ∈ n.mantissaText, c = '.' ∨ ∃ d, c = digitChar d := by
  intro c hc
  unfold PyNum.mantissaText at hc
  rcases List.mem_append.1 hc with h | h
  · obtain ⟨d, _, rfl⟩ := List.mem_map.1 h
    exact .inr ⟨d, rfl⟩
  · split at h
    · rcases List.mem_cons.1 h with rfl | h
      · exact .inl rfl
      · obtain ⟨d, _, rfl⟩ := List.mem_map.1 h
        exact .inr ⟨d, rfl⟩
    · cases h

theorem mantissa_noexp (n : PyNum) : ∀ c ∈ n.mantissaText, c ≠ 'e' ∧ c ≠ 'E' := by
  intro c hc
  rcases mantissa_chars n c hc with rfl | ⟨d, rfl⟩
  · decide
  · exact ⟨(digitChar_facts d).2.1, (digitChar_facts d).2.2.1⟩

theorem body_value (n : PyNum) (h : n.Valid) :
    pyFloatBody (n.mantissaText ++ PyNum.expText n.exp) = .ok (((numberOf n.int : Rat) + (numberOf n.frac : Rat) / 10 ^ n.frac.length) * (10 : Rat) ^ n.power) := by
  unfold pyFloatBody
  rcases he : n.exp with _ | ⟨c, s, k⟩
  · simp only [PyNum.expText, List.append_nil, drop_none _ (mantissa_noexp n), mantissa_value n h, PyNum.power, he, zpow_zero, mul_one]
  · have hk := h.exp c s k he
    have hx : (if c then 'E' else 'e') = 'e' ∨ (if c then 'E' else 'e') = 'E' := by cases c <;> simp
    obtain ⟨h1, h2⟩ := takeDrop_exp n.mantissaText (PyNum.signText s ++ k.map digitChar) (mantissa_noexp n) _ hx
    have h3 := (pyInt_iff (PyNum.signText s ++ k.map digitChar) _).2 ⟨s, k, hk, rfl, rfl⟩
    simp only [PyNum.expText, h1, h2, mantissa_value n h, h3, PyNum.power, he]

theorem text_head_body (n : PyNum) (h : n.Valid) : ∃ c r, n.mantissaText ++ PyNum.expText n.exp = c :: r ∧ c ≠ '-' ∧ c ≠ '+' := by
  have hm : n.mantissaText ≠ [] := by
    unfold PyNum.mantissaText
    intro h0
    rw [List.append_eq_nil_iff, List.map_eq_nil_iff] at h0
    obtain ⟨h1, h2⟩ := h0
    split at h2
    · cases h2
    · rename_i hp
      have hd := h.digits
      rw [h1, h.frac (by simpa using hp)] at hd
      exact hd rfl
  obtain ⟨c, r, hc⟩ := List.exists_cons_of_ne_nil hm
  refine ⟨c, r ++ PyNum.expText n.exp, by rw [hc, List.cons_append], ?_⟩
  rcases mantissa_chars n c (by rw [hc]; exact List.mem_cons_self ..) with rfl | ⟨d, rfl⟩
  · decide
  · exact ⟨(digitChar_facts d).2.2.2.1, (digitChar_facts d).2.2.2.2.1⟩

/-- **C156**: every decimal numeral, with any sign and any exponent, is read with its value. -/
theorem C156_numeral (n : PyNum) (h : n.Valid) : pyFloatStr n.text = .ok n.value := by
  obtain ⟨c, r, hc, h1, h2⟩ := text_head_body n h
  have hb := body_value n h
  unfold PyNum.text PyNum.value
  rcases hs : n.sign with _ | b
  · rw [show PyNum.signText none = [] from rfl, List.nil_append]
    rw [hc] at hb ⊢
    unfold pyFloatStr
    dsimp only
    rw [if_neg h1, if_neg h2, hb]
    simp [PyNum.signValue]
  · cases b
    · show pyFloatStr ('+' :: (n.mantissaText ++ PyNum.expText n.exp)) = _
      unfold pyFloatStr
      dsimp only
      rw [if_neg (by decide), if_pos rfl, hb]
      simp [PyNum.signValue]
    · show pyFloatStr ('-' :: (n.mantissaText ++ PyNum.expText n.exp)) = _
      unfold pyFloatStr
      dsimp only
      rw [if_pos rfl, hb]
      simp [PyNum.signValue, Except.map]

/-! ### nothing else is read -/

theorem pyMantissa_inv (cs : List Char) (x : Rat) (h : pyMantissa cs = .ok x) :
    ∃ (ip fp : List (Fin 10)) (p : Bool), ip ++ fp ≠ [] ∧ (p = false → fp = []) ∧ cs = ip.map digitChar ++ (if p then '.' :: fp.map digitChar else []) ∧
      x = (numberOf ip : Rat) + (numberOf fp : Rat) / 10 ^ fp.length := by
  unfold pyMantissa at h
  split at h
  · rename_i hall
    have hsplit := List.takeWhile_append_dropWhile (p := fun c : Char => decide (c ≠ '.')) (l := cs)
    have hip : (cs.takeWhile (fun c => decide (c ≠ '.'))).all isDig = true := by
      rw [List.all_eq_true] at hall ⊢
      intro c hc
      have h1 := hall c (List.takeWhile_subset _ hc)
      have h2 := List.mem_takeWhile_imp hc
      rw [Bool.or_eq_true] at h1
      rcases h1 with h1 | h1
      · exact h1
      · rw [decide_eq_true_eq] at h1 h2
        exact absurd h1 h2
    obtain ⟨ip, hip'⟩ := digits_exists _ hip
    unfold pyFloat at h
    dsimp only at h
    split at h
    · rename_i hd
      split at h
      · cases h
      · rename_i hne
        cases h
        rw [hd, List.append_nil] at hsplit
        refine ⟨ip, [], false, ?_, fun _ => rfl, ?_, ?_⟩
        · rw [List.append_nil]
          rintro rfl
          exact hne hip'.symm
        · rw [← hsplit, hip']
          simp
        · rw [← hip', natOfDigits_of]
          simp [numberOf]
    · rename_i y fp hd
      split at h
      · cases h
      · rename_i hfp
        cases h
        push Not at hfp
        have hy : y = '.' := by
          have := List.head?_dropWhile_not (p := fun c : Char => decide (c ≠ '.')) (l := cs)
          rw [hd] at this
          simpa using this
        have hfa : fp.all isDig = true := by
          rw [List.all_eq_true] at hall ⊢
          intro c hc
          have h1 := hall c (by
            rw [← hsplit, hd]
            exact List.mem_append_right _ (List.mem_cons_of_mem _ hc))
          rw [Bool.or_eq_true] at h1
          rcases h1 with h1 | h1
          · exact h1
          · rw [decide_eq_true_eq] at h1
            rw [h1] at hc
            exact absurd hc hfp.1
        obtain ⟨f, hf⟩ := digits_exists fp hfa
        rw [← hip', ← hf] at hfp
        refine ⟨ip, f, true, ?_, by simp, ?_, ?_⟩
        · intro h0
          apply hfp.2
          rw [← List.map_append, h0]
          rfl
        · rw [hd, hy] at hsplit
          rw [← hsplit, hip', hf, if_pos rfl]
        · rw [← hip', ← hf, natOfDigits_of, natOfDigits_of, List.length_map]
  · cases h

theorem pyFloatBody_inv (cs : List Char) (x : Rat) (h : pyFloatBody cs = .ok x) :
    ∃ n : PyNum, n.Valid ∧ n.sign = none ∧ n.text = cs ∧ n.value = x := by
  unfold pyFloatBody at h
  split at h
  · obtain ⟨ip, fp, p, h1, h2, h3, h4⟩ := pyMantissa_inv cs x h
    refine ⟨⟨none, ip, p, fp, none⟩, ⟨h1, h2, by simp⟩, rfl, ?_, ?_⟩
    · simp [PyNum.text, PyNum.signText, PyNum.mantissaText, PyNum.expText, h3]
    · simp [PyNum.value, PyNum.signValue, PyNum.power, h4]
  · rename_i y k hd
    split at h
    · cases h
    · rename_i m hm
      split at h
      · cases h
      · rename_i z hz
        cases h
        obtain ⟨ip, fp, p, h1, h2, h3, h4⟩ := pyMantissa_inv _ m hm
        obtain ⟨s, ds, d1, d2, d3⟩ := (pyInt_iff k z).1 hz
        have hy : y = 'e' ∨ y = 'E' := by
          have := List.head?_dropWhile_not (p := fun c : Char => decide (c ≠ 'e' ∧ c ≠ 'E')) (l := cs)
          rw [hd] at this
          simp only [List.head?_cons, decide_eq_false_iff_not] at this
          by_cases h0 : y = 'e'
          · exact .inl h0
          · exact .inr (by
              by_contra h9
              exact this ⟨h0, h9⟩)
        have hsplit := List.takeWhile_append_dropWhile (p := fun c : Char => decide (c ≠ 'e' ∧ c ≠ 'E')) (l := cs)
        rw [hd, h3, d2] at hsplit
        refine ⟨⟨none, ip, p, fp, some (decide (y = 'E'), s, ds)⟩, ⟨h1, h2, ?_⟩, rfl, ?_, ?_⟩
        · intro c s' k' e
          cases e
          exact d1
        · rw [← hsplit]
          have : (if decide (y = 'E') then 'E' else 'e') = y := by
            rcases hy with rfl | rfl <;> decide
          simp only [PyNum.text, PyNum.signText, PyNum.mantissaText, PyNum.expText, this, List.nil_append]
        · simp [PyNum.value, PyNum.signValue, PyNum.power, h4, d3]

/-- **C156**: nothing else is read as a number: a token gives a number exactly when it is a decimal numeral, and then its value. -/
theorem C156_only_numerals (t : Tok) (x : Rat) : pyFloatStr t = .ok x ↔ ∃ n : PyNum, n.Valid ∧ n.text = t ∧ n.value = x := by
  constructor
  · intro h
    unfold pyFloatStr at h
    split at h
    · cases h
    · rename_i c r
      split at h
      · rename_i hc
        cases hb : pyFloatBody r with
        | error e =>
          rw [hb] at h
          cases h
        | ok y =>
          rw [hb] at h
          cases h
          obtain ⟨n, h1, h2, h3, h4⟩ := pyFloatBody_inv r y hb
          refine ⟨⟨some true, n.int, n.point, n.frac, n.exp⟩, ⟨h1.digits, h1.frac, h1.exp⟩, ?_, ?_⟩
          · rw [hc, ← h3]
            simp [PyNum.text, h2, PyNum.signText, PyNum.mantissaText]
          · rw [← h4]
            simp [PyNum.value, h2, PyNum.signValue, PyNum.power]
      · split at h
        · rename_i hc
          obtain ⟨n, h1, h2, h3, h4⟩ := pyFloatBody_inv r x h
          refine ⟨⟨some false, n.int, n.point, n.frac, n.exp⟩, ⟨h1.digits, h1.frac, h1.exp⟩, ?_, ?_⟩
          · rw [hc, ← h3]
            simp [PyNum.text, h2, PyNum.signText, PyNum.mantissaText]
          · rw [← h4]
            simp [PyNum.value, h2, PyNum.signValue, PyNum.power]
        · obtain ⟨n, h1, _, h3, h4⟩ := pyFloatBody_inv (c :: r) x h
          exact ⟨n, h1, h3, h4⟩
  · rintro ⟨n, h, rfl, rfl⟩
    exact C156_numeral n h

/-- `float` of a text fails in no other way than with ValueError -/
theorem pyInt_err (cs : List Char) (e : PyErr) (h : pyInt cs = .error e) : e = .value := by
  unfold pyInt at h
  split at h
  · cases h; rfl
  · split at h
    · split at h <;> cases h
      rfl
    · split at h
      · split at h <;> cases h
        rfl
      · split at h <;> cases h
        rfl

theorem pyMantissa_err (cs : List Char) (e : PyErr) (h : pyMantissa cs = .error e) : e = .value := by
  unfold pyMantissa at h
  split at h
  · unfold pyFloat at h
    dsimp only at h
    split at h
    · split at h <;> cases h
      rfl
    · split at h <;> cases h
      rfl
  · cases h; rfl

theorem pyFloatBody_err (cs : List Char) (e : PyErr) (h : pyFloatBody cs = .error e) : e = .value := by
  unfold pyFloatBody at h
  split at h
  · exact pyMantissa_err _ _ h
  · split at h
    · rename_i h'
      cases h
      exact pyMantissa_err _ _ h'
    · split at h
      · rename_i h'
        cases h
        exact pyInt_err _ _ h'
      · cases h

theorem pyFloatStr_err (cs : List Char) (e : PyErr) (h : pyFloatStr cs = .error e) : e = .value := by
  unfold pyFloatStr at h
  split at h
  · cases h; rfl
  · split at h
    · rename_i r _
      cases hb : pyFloatBody r with
      | error e' =>
        rw [hb] at h
        cases h
        exact pyFloatBody_err _ _ hb
      | ok y =>
        rw [hb] at h
        cases h
    · split at h
      · exact pyFloatBody_err _ _ h
      · exact pyFloatBody_err _ _ h

/-- **C156**: every other text is refused with ValueError. -/
theorem C156_refused (t : Tok) (h : ¬ ∃ n : PyNum, n.Valid ∧ n.text = t) : pyFloatStr t = .error .value := by
  cases hr : pyFloatStr t with
  | error e => rw [pyFloatStr_err t e hr]
  | ok x =>
    obtain ⟨n, h1, h2, _⟩ := (C156_only_numerals t x).1 hr
    exact absurd ⟨n, h1, h2⟩ h

/-- the numerals that the other reader of the package gets wrong are read well here -/
theorem C156_witness :
    pyFloatStr "1E5".toList = .ok 100000 ∧ pyFloatStr "-5e15".toList = .ok (-5000000000000000) ∧ pyFloatStr "+2.50e-2".toList = .ok (1 / 40) ∧
    pyFloatStr "0;".toList = .error .value ∧ pyFloatStr "1.2.3".toList = .error .value ∧ pyFloatStr "]".toList = .error .value := by
  refine ⟨?_, ?_, ?_, ?_, ?_, ?_⟩ <;> decide +kernel

end Pyensys
