import Mathlib.Data.List.Basic
import Mathlib.Data.List.Forall2
import Mathlib.Data.Rat.Defs
import Mathlib.Algebra.BigOperators.Group.List.Basic
import Mathlib.Algebra.Order.Field.Rat

/-!
# Lists of results, for any type of errors
-/

namespace Pyensys

theorem mapE_nil {ε α β : Type} (f : α → Except ε β) : ([] : List α).mapM f = .ok [] := rfl

theorem mapE_cons {ε α β : Type} (f : α → Except ε β) (a : α) (l : List α) (r : List β) :
    (a :: l).mapM f = .ok r ↔ ∃ b r', f a = .ok b ∧ l.mapM f = .ok r' ∧ r = b :: r' := by
  rw [List.mapM_cons]
  cases h1 : f a with
  | error e =>
    constructor
    · intro h; cases h
    · rintro ⟨b, r', h, _⟩; cases h
  | ok b =>
    cases h2 : l.mapM f with
    | error e =>
      constructor
      · intro h; cases h
      · rintro ⟨b, r', _, h, _⟩; cases h
    | ok r' =>
      constructor
      · intro h; exact ⟨b, r', rfl, rfl, by cases h; rfl⟩
      · rintro ⟨b', r'', h3, h4, rfl⟩; cases h3; cases h4; rfl

theorem mapE_iff {ε α β : Type} (f : α → Except ε β) (l : List α) : ∀ r : List β, l.mapM f = .ok r ↔ List.Forall₂ (fun a b => f a = .ok b) l r := by
  induction l with
  | nil =>
    intro r
    rw [mapE_nil]
    constructor
    · intro h; cases h; exact .nil
    · intro h; cases h; rfl
  | cons a l ih =>
    intro r
    rw [mapE_cons]
    constructor
    · rintro ⟨b, r', h1, h2, rfl⟩; exact .cons h1 ((ih r').1 h2)
    · intro h
      cases h with
      | cons h1 h2 => exact ⟨_, _, h1, (ih _).2 h2, rfl⟩

theorem mapE_all {ε α β : Type} (f : α → Except ε β) (g : α → β) (l : List α) (h : ∀ a ∈ l, f a = .ok (g a)) : l.mapM f = .ok (l.map g) := by
  induction l with
  | nil => rfl
  | cons a l ih =>
    rw [mapE_cons]
    exact ⟨g a, l.map g, h a List.mem_cons_self, ih (fun a ha => h a (List.mem_cons_of_mem _ ha)), rfl⟩

theorem bindE_iff {ε α β : Type} (x : Except ε α) (f : α → Except ε β) (b : β) : (x >>= f) = .ok b ↔ ∃ a, x = .ok a ∧ f a = .ok b := by
  cases x with
  | error e =>
    constructor
    · intro h; cases h
    · rintro ⟨a, h, _⟩; cases h
  | ok a =>
    constructor
    · intro h; exact ⟨a, rfl, h⟩
    · rintro ⟨a', h, h2⟩; cases h; exact h2

theorem foldE_cons {ε α σ : Type} (f : σ → α → Except ε σ) (s : σ) (a : α) (l : List α) : (a :: l).foldlM f s = (f s a >>= fun s' => l.foldlM f s') := rfl


/-- the value of a result, or another one -/
def okD {ε α : Type} (e : Except ε α) (d : α) : α :=
  match e with
  | .ok a => a
  | .error _ => d

theorem okD_ok {ε α : Type} {e : Except ε α} {a : α} (h : e = .ok a) (d : α) : okD e d = a := by rw [h]; rfl

theorem mapE_okD {ε α β : Type} {f : α → Except ε β} {l : List α} {r : List β} (h : l.mapM f = .ok r) (d : β) :
    (∀ a ∈ l, f a = .ok (okD (f a) d)) ∧ r = l.map (fun a => okD (f a) d) := by
  induction l generalizing r with
  | nil => cases h; exact ⟨by simp, rfl⟩
  | cons a l ih =>
    obtain ⟨b, r', h1, h2, rfl⟩ := (mapE_cons f a l r).1 h
    obtain ⟨h3, h4⟩ := ih h2
    refine ⟨?_, ?_⟩
    · intro x hx
      rcases List.mem_cons.1 hx with rfl | hx
      · rw [h1]; rfl
      · exact h3 x hx
    · rw [List.map_cons, ← h4, okD_ok h1]

theorem sum_flat {α : Type} (W : α → ℚ) (L : List (List α)) : (L.flatten.map W).sum = (L.map (fun l => (l.map W).sum)).sum := by
  induction L with
  | nil => rfl
  | cons l L ih => rw [List.flatten_cons, List.map_append, List.sum_append, ih, List.map_cons, List.sum_cons]

theorem sum_flatMapE {α β : Type} (W : β → ℚ) (f : α → List β) (l : List α) : ((l.flatMap f).map W).sum = (l.map (fun a => ((f a).map W).sum)).sum := by
  induction l with
  | nil => rfl
  | cons a l ih => rw [List.flatMap_cons, List.map_append, List.sum_append, ih, List.map_cons, List.sum_cons]

theorem sum_zero' {α : Type} (g : α → ℚ) (l : List α) (h : ∀ a ∈ l, g a = 0) : (l.map g).sum = 0 := by
  induction l with
  | nil => rfl
  | cons a l ih => rw [List.map_cons, List.sum_cons, h a List.mem_cons_self, ih (fun a ha => h a (List.mem_cons_of_mem _ ha)), zero_add]

theorem sum_single' {α : Type} (g : α → ℚ) (l : List α) (a : α) (ha : a ∈ l) (hn : l.Nodup) (h : ∀ b ∈ l, b ≠ a → g b = 0) : (l.map g).sum = g a := by
  induction l with
  | nil => cases ha
  | cons b l ih =>
    rw [List.map_cons, List.sum_cons]
    rw [List.nodup_cons] at hn
    by_cases hb : b = a
    · subst hb
      rw [sum_zero' g l, add_zero]
      intro c hc
      refine h c (List.mem_cons_of_mem _ hc) ?_
      rintro rfl
      exact hn.1 hc
    · rw [h b List.mem_cons_self hb, zero_add]
      refine ih ?_ hn.2 (fun c hc => h c (List.mem_cons_of_mem _ hc))
      rcases List.mem_cons.1 ha with rfl | ha
      · exact absurd rfl hb
      · exact ha

theorem sum_congr' {α : Type} {g g' : α → ℚ} {l : List α} (h : ∀ a ∈ l, g a = g' a) : (l.map g).sum = (l.map g').sum := by
  rw [List.map_congr_left h]

theorem sum_filter_ifE {α : Type} (P : α → Bool) (g : α → ℚ) (l : List α) : ((l.filter P).map g).sum = (l.map (fun a => if P a = true then g a else 0)).sum := by
  induction l with
  | nil => rfl
  | cons a l ih =>
    rw [List.filter_cons, List.map_cons, List.sum_cons, ← ih]
    split
    · rw [List.map_cons, List.sum_cons]
    · rw [zero_add]

end Pyensys
