import Verif.Props.MonteCarlo
import Mathlib.MeasureTheory.Measure.Lebesgue.Basic
import Mathlib.Analysis.SpecificLimits.Normed

/-!
# C225: the times to failure and to recover are exponential

The numbers that are drawn are uniform in the interval from 0 to 1: probabilities are lengths (`volume`) of sets of numbers.
-/

namespace Pyensys

open MeasureTheory

/-- the numbers for which the time is at least `k` hours -/
def AtLeast (mean : ℝ) (k : Nat) : Set ℝ := {u | 0 < u ∧ u < 1 ∧ ∃ t, sampleTime mean u = .ok t ∧ (k : Int) ≤ t}

/-- C225: the time is at least `k` hours iff the number is at most `exp (-k / mean)` -/
theorem C225_time_partial (mean u : ℝ) (k : Nat) (hm : 0 < mean) (h0 : 0 < u) : (∃ t, sampleTime mean u = .ok t ∧ (k : Int) ≤ t) ↔ u ≤ Real.exp (-(k : ℝ) / mean) := by
  have hs : sampleTime mean u = .ok ⌊-mean * Real.log u⌋ := by
    unfold sampleTime
    rw [if_neg (not_le.mpr h0)]
  rw [← Real.log_le_iff_le_exp h0]
  constructor
  · rintro ⟨t, ht, hk⟩
    rw [hs] at ht
    injection ht with ht
    rw [← ht, Int.le_floor] at hk
    rw [le_div_iff₀ hm]
    push_cast at hk
    linarith
  · intro h
    refine ⟨_, hs, ?_⟩
    rw [Int.le_floor]
    rw [le_div_iff₀ hm] at h
    push_cast
    linarith

/-- C225: the time is at least `k` hours with probability `exp (-k / mean)` -/
theorem C225_probability_partial (mean : ℝ) (k : Nat) (hm : 0 < mean) : volume (AtLeast mean k) = ENNReal.ofReal (Real.exp (-(k : ℝ) / mean)) := by
  cases k with
  | zero =>
    have : AtLeast mean 0 = Set.Ioo 0 1 := by
      ext u
      constructor
      · rintro ⟨h0, h1, _⟩; exact ⟨h0, h1⟩
      · rintro ⟨h0, h1⟩
        refine ⟨h0, h1, (C225_time_partial mean u 0 hm h0).mpr ?_⟩
        simpa using h1.le
    rw [this, Real.volume_Ioo]
    simp
  | succ k =>
    have hlt : Real.exp (-((k + 1 : Nat) : ℝ) / mean) < 1 := by
      rw [Real.exp_lt_one_iff]
      apply div_neg_of_neg_of_pos _ hm
      have : (0 : ℝ) < ((k + 1 : Nat) : ℝ) := by exact_mod_cast Nat.succ_pos k
      linarith
    have : AtLeast mean (k + 1) = Set.Ioc 0 (Real.exp (-((k + 1 : Nat) : ℝ) / mean)) := by
      ext u
      constructor
      · rintro ⟨h0, _, h⟩; exact ⟨h0, (C225_time_partial mean u (k + 1) hm h0).mp h⟩
      · rintro ⟨h0, h1⟩
        exact ⟨h0, lt_of_le_of_lt h1 hlt, (C225_time_partial mean u (k + 1) hm h0).mpr h1⟩
    rw [this, Real.volume_Ioc]
    simp

/-- C225, violated: the mean of the times (the sum of the probabilities of at least 1, 2, … hours) is `1 / (exp (1 / mean) - 1)`, less than the mean that is given -/
theorem C225_violated_mean (mean : ℝ) (hm : 0 < mean) :
    HasSum (fun k : Nat => (volume (AtLeast mean (k + 1))).toReal) (1 / (Real.exp (1 / mean) - 1)) ∧ 1 / (Real.exp (1 / mean) - 1) < mean := by
  have hx : 0 < 1 / mean := by positivity
  have he : 1 / mean + 1 < Real.exp (1 / mean) := Real.add_one_lt_exp hx.ne'
  have hpos : 0 < Real.exp (1 / mean) - 1 := by linarith
  constructor
  · have hq0 : 0 ≤ Real.exp (-1 / mean) := (Real.exp_pos _).le
    have hq1 : Real.exp (-1 / mean) < 1 := by
      rw [Real.exp_lt_one_iff]
      exact div_neg_of_neg_of_pos (by norm_num) hm
    have hg := (hasSum_geometric_of_lt_one hq0 hq1).mul_left (Real.exp (-1 / mean))
    have hf : (fun k : Nat => (volume (AtLeast mean (k + 1))).toReal) = fun k : Nat => Real.exp (-1 / mean) * Real.exp (-1 / mean) ^ k := by
      funext k
      rw [C225_probability_partial mean (k + 1) hm, ENNReal.toReal_ofReal (Real.exp_pos _).le, ← Real.exp_nat_mul, ← Real.exp_add]
      congr 1
      push_cast
      field_simp
      ring
    rw [hf]
    have hv : Real.exp (-1 / mean) * (1 - Real.exp (-1 / mean))⁻¹ = 1 / (Real.exp (1 / mean) - 1) := by
      have h1 : Real.exp (-1 / mean) = (Real.exp (1 / mean))⁻¹ := by
        rw [← Real.exp_neg]
        congr 1
        ring
      rw [h1]
      have hne : Real.exp (1 / mean) ≠ 0 := (Real.exp_pos _).ne'
      have hne2 : Real.exp (1 / mean) - 1 ≠ 0 := hpos.ne'
      field_simp
    rw [← hv]
    exact hg
  · rw [div_lt_iff₀ hpos]
    have : mean * (1 / mean) = 1 := by field_simp
    nlinarith

/-- C225, violated: with probability `1 - exp (-1 / mttr)` the time to recover is 0; then the element never fails, whatever its time to failure -/
theorem C225_violated_never (mttr : ℝ) (hm : 0 < mttr) (total fuel : Nat) (hf : total < fuel) (ttf : Int) :
    volume {u : ℝ | 0 < u ∧ u < 1 ∧ ∃ t, sampleTime mttr u = .ok t ∧ mcRow fuel total (ttf, t) = .ok (List.replicate total 1)} ≥ ENNReal.ofReal (1 - Real.exp (-1 / mttr)) := by
  have hsub : Set.Ioo (Real.exp (-1 / mttr)) 1 ⊆ {u : ℝ | 0 < u ∧ u < 1 ∧ ∃ t, sampleTime mttr u = .ok t ∧ mcRow fuel total (ttf, t) = .ok (List.replicate total 1)} := by
    rintro u ⟨h1, h2⟩
    have h0 : 0 < u := lt_trans (Real.exp_pos _) h1
    obtain ⟨t, ht, ht0⟩ := (C54_times_partial mttr u hm.le h0.le h2).2 h0.ne'
    have hnot : ¬ ((1 : Nat) : Int) ≤ t := by
      intro hk
      have := (C225_time_partial mttr u 1 hm h0).mp ⟨t, ht, hk⟩
      rw [Nat.cast_one] at this
      linarith
    have hz : t = 0 := by
      push_cast at hnot
      omega
    exact ⟨h0, h2, t, ht, C54_zero_partial total fuel ttf t (Or.inr hz) hf⟩
  refine le_trans ?_ (measure_mono hsub)
  rw [Real.volume_Ioo]

/-- mean 10 hours, at least 5 hours -/
example : volume (AtLeast 10 5) = ENNReal.ofReal (Real.exp (-(5 : Nat) / 10)) := C225_probability_partial 10 5 (by norm_num)

end Pyensys
