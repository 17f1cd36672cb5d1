import Verif.Props.GlpkWater

/-!
# C153: names of the rows that link trees and units
-/

namespace Pyensys

/-- names of the links -/
def GxNames (vectors insts : Nat) : Prop := ∀ v i v' i', v < vectors → i < insts → v' < vectors → i' < insts →
  gDigits v i = gDigits v' i' → v = v' ∧ i = i'

theorem toDigits_inj {a b : Nat} (h : Nat.toDigits 10 a = Nat.toDigits 10 b) : a = b := by
  rw [← Nat.ofDigitChars_ten_toDigits (n := a), h, Nat.ofDigitChars_ten_toDigits]

theorem gDigits_eq {v i v' i' : Nat} : gDigits v i = gDigits v' i' ↔ Nat.toDigits 10 v ++ Nat.toDigits 10 i = Nat.toDigits 10 v' ++ Nat.toDigits 10 i' := by
  unfold gDigits
  constructor
  · intro h
    exact List.map_injective_iff.2 (fun a b hab => Char.toNat_inj.1 hab) h
  · intro h; rw [h]

/-- the tenth tree is named like no other one -/
theorem toDigits_ten {v i i' : Nat} (hv : v < 10) (h : Nat.toDigits 10 10 ++ Nat.toDigits 10 i = Nat.toDigits 10 v ++ Nat.toDigits 10 i') : False := by
  rw [Nat.toDigits_of_lt_base hv, show Nat.toDigits 10 10 = ['1', '0'] by decide] at h
  simp only [List.cons_append, List.nil_append, List.cons.injEq] at h
  have h2 := h.2
  have e : Nat.ofDigitChars 10 ('0' :: Nat.toDigits 10 i) 0 = i := by
    rw [Nat.ofDigitChars_cons]
    exact Nat.ofDigitChars_ten_toDigits
  have e2 : i = i' := by
    rw [← e, h2, Nat.ofDigitChars_ten_toDigits]
  subst e2
  have := congrArg List.length h2
  simp at this

/-- names are distinct exactly if there are at most eleven trees or at most ten instances -/
theorem gxNames_iff (vectors insts : Nat) : GxNames vectors insts ↔ vectors ≤ 11 ∨ insts ≤ 10 := by
  constructor
  · intro h
    by_contra hc
    have h1 : 11 < vectors := by omega
    have h2 : 10 < insts := by omega
    have := h 1 10 11 0 (by omega) (by omega) (by omega) (by omega) (by decide)
    omega
  · rintro (h | h) v i v' i' hv hi hv' hi' he
    · rw [gDigits_eq] at he
      by_cases h1 : v < 10
      · by_cases h2 : v' < 10
        · rw [Nat.toDigits_of_lt_base h1, Nat.toDigits_of_lt_base h2] at he
          obtain ⟨e1, e2⟩ := List.append_inj he rfl
          exact ⟨toDigits_inj (by rw [Nat.toDigits_of_lt_base h1, Nat.toDigits_of_lt_base h2, e1]), toDigits_inj e2⟩
        · have : v' = 10 := by omega
          subst this
          exact (toDigits_ten h1 he.symm).elim
      · have : v = 10 := by omega
        subst this
        by_cases h2 : v' < 10
        · exact (toDigits_ten h2 he).elim
        · have : v' = 10 := by omega
          subst this
          exact ⟨rfl, toDigits_inj (List.append_cancel_left he)⟩
    · rw [gDigits_eq, Nat.toDigits_of_lt_base (show i < 10 by omega), Nat.toDigits_of_lt_base (show i' < 10 by omega)] at he
      obtain ⟨e1, e2⟩ := List.append_inj' he rfl
      exact ⟨toDigits_inj e1, toDigits_inj (by rw [Nat.toDigits_of_lt_base (show i < 10 by omega), Nat.toDigits_of_lt_base (show i' < 10 by omega), e2])⟩

end Pyensys
