import Verif.Model.Renewables
import Verif.Props.AttestOptions
import Verif.Props.Multipliers
import Mathlib.Tactic.Ring
import Mathlib.Tactic.Linarith
import Mathlib.Tactic.FieldSimp
import Mathlib.Tactic.Positivity
import Mathlib.Analysis.Real.Pi.Bounds

/-!
# Renewable profiles (C53, C98, C99)
-/

namespace Pyensys

open Real

/-! ## C53: wind -/

/-- parameters of a turbine that make sense -/
structure WindOk (c : WindCfg) : Prop where
  cutIn : 0 ≤ c.cutIn
  rated : c.cutIn ≤ c.rated
  cutOut : c.rated ≤ c.cutOut
  park : 0 ≤ c.park
  model : 1 ≤ c.model
  height : 0 < c.height
  tower : 0 < c.tower

/-- wind speed at the height of the turbine -/
noncomputable def towerSpeed (c : WindCfg) (v : ℝ) : ℝ := v * (c.tower / c.height) ^ c.alpha

theorem windOne_eq {c : WindCfg} (h : WindOk c) (v : ℝ) : windOne c v = windCurve c (towerSpeed c v) := by
  have hb : 0 < c.tower / c.height := div_pos h.tower h.height
  unfold windOne towerSpeed
  rw [if_neg h.height.ne', if_neg (not_lt.2 hb.le), if_neg (fun hh => hb.ne' hh.1)]

/-- the curve as a function: zero, the rising part, rated, zero -/
theorem windCurve_cases {c : WindCfg} (h : WindOk c) (ws : ℝ) : ∃ p, windCurve c ws = .ok p ∧
    ((ws ≤ c.cutIn ∧ p = 0) ∨
     (c.cutIn < ws ∧ ws ≤ c.rated ∧ 0 < c.rated ^ c.model - c.cutIn ^ c.model ∧
        p = c.park * (ws ^ c.model - c.cutIn ^ c.model) / (c.rated ^ c.model - c.cutIn ^ c.model)) ∨
     (c.cutIn < ws ∧ c.rated < ws ∧ ws ≤ c.cutOut ∧ p = c.park) ∨ (c.cutOut < ws ∧ p = 0)) := by
  unfold windCurve
  by_cases h1 : ws > c.cutIn
  · rw [if_pos h1]
    by_cases h2 : ws > c.rated
    · rw [if_pos h2]
      by_cases h3 : ws ≤ c.cutOut
      · rw [if_pos h3]; exact ⟨_, rfl, Or.inr (Or.inr (Or.inl ⟨h1, h2, h3, rfl⟩))⟩
      · rw [if_neg h3]; exact ⟨_, rfl, Or.inr (Or.inr (Or.inr ⟨lt_of_not_ge h3, rfl⟩))⟩
    · rw [if_neg h2]
      have hlt : c.cutIn < c.rated := lt_of_lt_of_le h1 (not_lt.1 h2)
      have hp : c.cutIn ^ c.model < c.rated ^ c.model := pow_lt_pow_left₀ hlt h.cutIn (by have := h.model; omega)
      have hd : 0 < c.rated ^ c.model - c.cutIn ^ c.model := by linarith
      rw [if_neg hd.ne']
      exact ⟨_, rfl, Or.inr (Or.inl ⟨h1, not_lt.1 h2, hd, rfl⟩)⟩
  · rw [if_neg h1]; exact ⟨_, rfl, Or.inl ⟨not_lt.1 h1, rfl⟩⟩

theorem rising_bounds {c : WindCfg} (h : WindOk c) {ws : ℝ} (h1 : c.cutIn < ws) (h2 : ws ≤ c.rated)
    (hd : 0 < c.rated ^ c.model - c.cutIn ^ c.model) :
    0 ≤ c.park * (ws ^ c.model - c.cutIn ^ c.model) / (c.rated ^ c.model - c.cutIn ^ c.model) ∧
    c.park * (ws ^ c.model - c.cutIn ^ c.model) / (c.rated ^ c.model - c.cutIn ^ c.model) ≤ c.park := by
  have a1 : c.cutIn ^ c.model ≤ ws ^ c.model := pow_le_pow_left₀ h.cutIn h1.le _
  have a2 : ws ^ c.model ≤ c.rated ^ c.model := pow_le_pow_left₀ (h.cutIn.trans h1.le) h2 _
  constructor
  · exact div_nonneg (mul_nonneg h.park (by linarith)) hd.le
  · rw [div_le_iff₀ hd]
    exact mul_le_mul_of_nonneg_left (by linarith) h.park

/-- **C53.** For every series of wind speeds and every sensible turbine there is one output for each speed; it is between
zero and the efficiency of the park, zero up to the cut-in speed and beyond the cut-out speed, and full from the rated to
the cut-out speed (all at the height of the tower). -/
theorem C53_limits (c : WindCfg) (h : WindOk c) (vals : List ℝ) : ∃ out, buildWind c vals = .ok out ∧
    out.length = vals.length ∧ ∀ (i : Nat) (v p : ℝ), vals[i]? = some v → out[i]? = some p →
      (0 ≤ p ∧ p ≤ c.park) ∧ (towerSpeed c v ≤ c.cutIn → p = 0) ∧ (c.cutOut < towerSpeed c v → p = 0) ∧
      (c.cutIn < towerSpeed c v → c.rated ≤ towerSpeed c v → towerSpeed c v ≤ c.cutOut → p = c.park) := by
  classical
  refine ⟨vals.map (fun v => (windCurve_cases h (towerSpeed c v)).choose), ?_, by simp, ?_⟩
  · exact mapM_all _ _ _ (fun v _ => by rw [windOne_eq h]; exact (windCurve_cases h (towerSpeed c v)).choose_spec.1)
  · intro i v p hv hp
    rw [List.getElem?_map, hv, Option.map_some, Option.some.injEq] at hp
    have hs := (windCurve_cases h (towerSpeed c v)).choose_spec.2
    rw [hp] at hs
    rcases hs with ⟨a1, rfl⟩ | ⟨a1, a2, a3, rfl⟩ | ⟨a1, a2, a3, rfl⟩ | ⟨a1, rfl⟩
    · exact ⟨⟨le_refl _, h.park⟩, fun _ => rfl, fun _ => rfl, fun b => absurd a1 (not_le.2 b)⟩
    · refine ⟨rising_bounds h a1 a2 a3, fun b => absurd a1 (not_lt.2 b), fun b => ?_, fun _ b _ => ?_⟩
      · exact absurd (lt_of_lt_of_le b a2) (not_lt.2 h.cutOut)
      · have e : towerSpeed c v = c.rated := le_antisymm a2 b
        rw [e]
        field_simp
    · exact ⟨⟨h.park, le_refl _⟩, fun b => absurd a1 (not_lt.2 b), fun b => absurd a3 (not_le.2 b), fun _ _ _ => rfl⟩
    · refine ⟨⟨le_refl _, h.park⟩, fun _ => rfl, fun _ => rfl, fun _ _ b => absurd a1 (not_lt.2 b)⟩

/-- **C53.** Up to the cut-out speed more wind never gives less output; between cut-in and rated speed it gives strictly
more. -/
theorem C53_monotone (c : WindCfg) (h : WindOk c) (v v' p p' : ℝ) (hv : v ≤ v') (hout : towerSpeed c v' ≤ c.cutOut)
    (hp : windOne c v = .ok p) (hp' : windOne c v' = .ok p') :
    p ≤ p' ∧ (0 < c.park → v < v' → c.cutIn < towerSpeed c v' → towerSpeed c v' ≤ c.rated → p < p') := by
  have hf : 0 < (c.tower / c.height) ^ c.alpha := rpow_pos_of_pos (div_pos h.tower h.height) _
  have hle : towerSpeed c v ≤ towerSpeed c v' := mul_le_mul_of_nonneg_right hv hf.le
  have hlt : v < v' → towerSpeed c v < towerSpeed c v' := fun hh => mul_lt_mul_of_pos_right hh hf
  rw [windOne_eq h] at hp hp'
  obtain ⟨q, q1, q2⟩ := windCurve_cases h (towerSpeed c v)
  obtain ⟨q', q1', q2'⟩ := windCurve_cases h (towerSpeed c v')
  rw [hp, Except.ok.injEq] at q1
  rw [hp', Except.ok.injEq] at q1'
  subst q1
  subst q1'
  generalize towerSpeed c v = w at *
  generalize towerSpeed c v' = w' at *
  rcases q2 with ⟨a1, rfl⟩ | ⟨a1, a2, a3, rfl⟩ | ⟨a1, a2, a3, rfl⟩ | ⟨a1, rfl⟩
  · rcases q2' with ⟨b1, rfl⟩ | ⟨b1, b2, b3, rfl⟩ | ⟨b1, b2, b3, rfl⟩ | ⟨b1, rfl⟩
    · exact ⟨le_refl _, fun _ _ hh => absurd b1 (not_le.2 hh)⟩
    · refine ⟨(rising_bounds h b1 b2 b3).1, fun hpk _ _ _ => ?_⟩
      have : c.cutIn ^ c.model < w' ^ c.model := pow_lt_pow_left₀ b1 h.cutIn (by have := h.model; omega)
      exact div_pos (mul_pos hpk (by linarith)) b3
    · exact ⟨h.park, fun hpk _ _ _ => hpk⟩
    · exact absurd hout (not_le.2 b1)
  · rcases q2' with ⟨b1, rfl⟩ | ⟨b1, b2, b3, rfl⟩ | ⟨b1, b2, b3, rfl⟩ | ⟨b1, rfl⟩
    · exact absurd (lt_of_lt_of_le a1 hle) (not_lt.2 b1)
    · have hm : w ^ c.model ≤ w' ^ c.model := pow_le_pow_left₀ (h.cutIn.trans a1.le) hle _
      refine ⟨?_, fun hpk hvv _ _ => ?_⟩
      · exact div_le_div_of_nonneg_right (mul_le_mul_of_nonneg_left (by linarith) h.park) a3.le
      · have hm : w ^ c.model < w' ^ c.model := pow_lt_pow_left₀ (hlt hvv) (h.cutIn.trans a1.le) (by have := h.model; omega)
        exact div_lt_div_of_pos_right (mul_lt_mul_of_pos_left (by linarith) hpk) a3
    · refine ⟨(rising_bounds h a1 a2 a3).2, fun _ _ _ hh => absurd b2 (not_lt.2 hh)⟩
    · exact absurd hout (not_le.2 b1)
  · rcases q2' with ⟨b1, rfl⟩ | ⟨b1, b2, b3, rfl⟩ | ⟨b1, b2, b3, rfl⟩ | ⟨b1, rfl⟩
    · exact absurd (lt_of_lt_of_le a1 hle) (not_lt.2 b1)
    · exact absurd (lt_of_lt_of_le a2 hle) (not_lt.2 b2)
    · exact ⟨le_refl _, fun _ _ _ hh => absurd b2 (not_lt.2 hh)⟩
    · exact absurd hout (not_le.2 b1)
  · exact absurd (lt_of_lt_of_le a1 hle) (not_lt.2 hout)

/-- the default turbine (RN:32-40) is sensible -/
example : WindOk ⟨10, 0.1429, 3, 10, 24, 0.95, 1, 50⟩ := by
  constructor <;> norm_num

/-- **C53 fails** if the rated speed is beyond the cut-out speed: the turbine then runs beyond its cut-out speed. -/
theorem C53_unordered_violated : ∃ c : WindCfg, c.cutIn ≤ c.cutOut ∧ c.cutOut < c.rated ∧
    ∃ v p, windOne c v = .ok p ∧ c.cutOut < towerSpeed c v ∧ 0 < p := by
  refine ⟨⟨1, 0, 0, 10, 5, 1, 1, 1⟩, by norm_num, by norm_num, 6, 6 / 10, ?_, ?_, by norm_num⟩
  · unfold windOne windCurve
    norm_num
  · unfold towerSpeed
    norm_num

/-! ## C98: cooling -/

/-- cooling data that make sense: the factor is not negative where the fast part begins -/
structure CoolingOk (d : CoolingData) : Prop where
  lambda : 0 ≤ d.lambda
  width : 0 < d.delta / d.scarcity
  shut : d.shut ≤ d.max
  risk : d.lambda * (coolRisk d - d.health) ≤ 1

theorem slope_nonneg {d : CoolingData} (h : CoolingOk d) : 0 ≤ coolSlope d := by
  unfold coolSlope
  refine div_nonneg ?_ h.width.le
  have := h.risk
  unfold coolRisk at this
  linarith

theorem slope_at_risk {d : CoolingData} (h : CoolingOk d) : coolSlope d * (d.max - coolRisk d) = 1 - d.lambda * (coolRisk d - d.health) := by
  have hw := h.width.ne'
  unfold coolSlope coolRisk
  have e : d.max - (d.max - d.delta / d.scarcity) = d.delta / d.scarcity := by ring
  rw [e, div_mul_cancel₀ _ hw]

/-- the factor before it is limited to one -/
noncomputable def coolRaw (d : CoolingData) (t : ℝ) : ℝ :=
  if t ≤ d.health then 1 else if t < d.shut then
      if t ≤ coolRisk d then 1 - d.lambda * (t - d.health) else coolSlope d * (d.max - t)
    else 0

theorem coolOne_eq (d : CoolingData) (t : ℝ) : coolOne d t = min (coolRaw d t) 1 := by
  unfold coolOne
  change (if coolRaw d t > 1 then 1 else coolRaw d t) = _
  by_cases h : coolRaw d t > 1
  · rw [if_pos h, min_eq_right h.le]
  · rw [if_neg h, min_eq_left (not_lt.1 h)]

theorem coolRaw_nonneg {d : CoolingData} (h : CoolingOk d) (t : ℝ) : 0 ≤ coolRaw d t := by
  unfold coolRaw
  by_cases h1 : t ≤ d.health
  · rw [if_pos h1]; norm_num
  · rw [if_neg h1]
    by_cases h2 : t < d.shut
    · rw [if_pos h2]
      by_cases h3 : t ≤ coolRisk d
      · rw [if_pos h3]
        have := mul_le_mul_of_nonneg_left (show t - d.health ≤ coolRisk d - d.health by linarith) h.lambda
        have := h.risk
        linarith
      · rw [if_neg h3]
        exact mul_nonneg (slope_nonneg h) (by have := h.shut; linarith)
    · rw [if_neg h2]

/-- **C98.** For every temperature the capacity factor is between 0 and 1; it is 1 up to the healthy temperature and 0
from the shutdown temperature (if that is higher). -/
theorem C98_limits (d : CoolingData) (h : CoolingOk d) (t : ℝ) : (0 ≤ coolOne d t ∧ coolOne d t ≤ 1) ∧
    (t ≤ d.health → coolOne d t = 1) ∧ (d.health < t → d.shut ≤ t → coolOne d t = 0) := by
  rw [coolOne_eq]
  refine ⟨⟨le_min (coolRaw_nonneg h t) (by norm_num), min_le_right _ _⟩, fun h1 => ?_, fun h1 h2 => ?_⟩
  · unfold coolRaw; rw [if_pos h1]; simp
  · unfold coolRaw; rw [if_neg (not_le.2 h1), if_neg (not_lt.2 h2)]; simp

/-- **C98.** Warmer water never gives a larger factor. -/
theorem C98_monotone (d : CoolingData) (h : CoolingOk d) (t t' : ℝ) (ht : t ≤ t') : coolOne d t' ≤ coolOne d t := by
  rw [coolOne_eq, coolOne_eq]
  have hs := slope_nonneg h
  have hr := slope_at_risk h
  -- compare the raw factors, or the first one is at least 1
  have key : coolRaw d t' ≤ coolRaw d t ∨ 1 ≤ coolRaw d t := by
    by_cases h1 : t ≤ d.health
    · right; unfold coolRaw; rw [if_pos h1]
    · left
      have h1' : ¬ t' ≤ d.health := fun hh => h1 (ht.trans hh)
      by_cases h2' : t' < d.shut
      · have h2 : t < d.shut := lt_of_le_of_lt ht h2'
        unfold coolRaw
        rw [if_neg h1, if_neg h1', if_pos h2, if_pos h2']
        by_cases h3 : t ≤ coolRisk d
        · rw [if_pos h3]
          by_cases h3' : t' ≤ coolRisk d
          · rw [if_pos h3']
            have := mul_le_mul_of_nonneg_left (show t - d.health ≤ t' - d.health by linarith) h.lambda
            linarith
          · rw [if_neg h3']
            have a1 := mul_le_mul_of_nonneg_left (show d.max - t' ≤ d.max - coolRisk d by linarith [not_le.1 h3']) hs
            have a2 := mul_le_mul_of_nonneg_left (show t - d.health ≤ coolRisk d - d.health by linarith) h.lambda
            linarith
        · rw [if_neg h3, if_neg (fun hh => h3 (ht.trans hh))]
          exact mul_le_mul_of_nonneg_left (by linarith) hs
      · have : coolRaw d t' = 0 := by
          unfold coolRaw
          rw [if_neg h1', if_neg h2']
        rw [this]
        exact coolRaw_nonneg h t
  rcases key with k | k
  · exact min_le_min_right 1 k
  · rw [min_eq_right k]; exact min_le_right _ _

/-- **C98.** Asked for a known type with complete data, `get_CF` gives one factor for each temperature, that of the data of
this type; an unknown type, a missing entry, or no width are errors. -/
theorem C98_selected (c : CoolingCfg) (name : String) (i : Nat) (hi : c.types.idxOf name = i) (hmem : name ∈ c.types)
    (health shut max delta lambda : ℝ) (h1 : c.thres[i]? = some health) (h2 : c.shut[i]? = some shut) (h3 : c.max[i]? = some max)
    (h4 : c.delta[i]? = some delta) (h5 : c.lambda[i]? = some lambda) (hok : CoolingOk ⟨health, shut, max, delta, c.scarcity, lambda⟩)
    (temps : List ℝ) : getCF c (.type name) temps = .ok (temps.map (coolOne ⟨health, shut, max, delta, c.scarcity, lambda⟩)) := by
  have hw := hok.width
  simp only at hw
  have hs : c.scarcity ≠ 0 := by
    intro h0
    rw [h0, div_zero] at hw
    exact lt_irrefl _ hw
  unfold getCF coolIndex
  simp only [if_pos hmem, hi]
  simp only [bind, Except.bind, (pyGet_nat_iff _ _ _).2 h1, (pyGet_nat_iff _ _ _).2 h2, (pyGet_nat_iff _ _ _).2 h3,
    (pyGet_nat_iff _ _ _).2 h4, (pyGet_nat_iff _ _ _).2 h5]
  rw [if_neg hs, if_neg hw.ne']

theorem C98_unknown (c : CoolingCfg) (name : String) (hmem : name ∉ c.types) (temps : List ℝ) :
    getCF c (.type name) temps = .error .value := by
  unfold getCF coolIndex
  simp [hmem, bind, Except.bind]

/-- the default data for coal (RN:43-59) make sense -/
example : CoolingOk ⟨15, 32, 35, 10, 1, 0.0097⟩ := by
  constructor <;> norm_num [coolRisk]

/-- **C98 fails** if the shutdown temperature is above the maximum: the factor becomes negative. -/
theorem C98_shutdown_violated : ∃ d : CoolingData, 0 ≤ d.lambda ∧ 0 < d.delta / d.scarcity ∧ d.max < d.shut ∧
    d.lambda * (coolRisk d - d.health) ≤ 1 ∧ ∃ t, coolOne d t < 0 := by
  refine ⟨⟨15, 40, 35, 10, 1, 0⟩, by norm_num, by norm_num, by norm_num, by norm_num, 36, ?_⟩
  norm_num [coolOne, coolRisk, coolSlope]

/-! ## C99: sun -/

theorem sinAltitude_sq (f d h : ℝ) : (cos d * sin h) ^ 2 + sinAltitude f d h ^ 2 + (cos f * sin d - sin f * cos d * cos h) ^ 2 = 1 := by
  unfold sinAltitude
  have e1 := sin_sq_add_cos_sq f
  have e2 := sin_sq_add_cos_sq d
  have e3 := sin_sq_add_cos_sq h
  have a1 : sin h ^ 2 = 1 - cos h ^ 2 := by linarith
  have a2 : sin d ^ 2 = 1 - cos d ^ 2 := by linarith
  have a3 : sin f ^ 2 = 1 - cos f ^ 2 := by linarith
  ring_nf
  rw [a1, a2, a3]
  ring

theorem sinAltitude_abs (f d h : ℝ) : -1 ≤ sinAltitude f d h ∧ sinAltitude f d h ≤ 1 := by
  have := sinAltitude_sq f d h
  have h1 := sq_nonneg (cos d * sin h)
  have h2 := sq_nonneg (cos f * sin d - sin f * cos d * cos h)
  have : sinAltitude f d h ^ 2 ≤ 1 := by linarith
  exact abs_le.1 ((sq_le_one_iff_abs_le_one _).1 this)

theorem mathAsin_ok {x : ℝ} (h1 : -1 ≤ x) (h2 : x ≤ 1) : mathAsin x = .ok (arcsin x) := by
  unfold mathAsin
  rw [if_neg]
  rintro (h | h)
  · exact absurd h (not_lt.2 h1)
  · exact absurd h (not_lt.2 h2)

/-- what the angles are -/
theorem pvAngles_cases (xd xh f face tilt : ℝ) :
    (sinAltitude f (declination xd) (hourAngle xh) ^ 2 = 1 ∧ pvAngles xd xh f face tilt = .error .zeroDivision) ∨
    (sinAltitude f (declination xd) (hourAngle xh) ^ 2 ≠ 1 ∧ tan f = 0 ∧ pvAngles xd xh f face tilt = .error .zeroDivision) ∨
    (sinAltitude f (declination xd) (hourAngle xh) ^ 2 ≠ 1 ∧ tan f ≠ 0 ∧ ∃ b az, pvAngles xd xh f face tilt =
      .ok (if b < 0 then 0 else b,
        if cos b * cos (az - face) * sin tilt + sin b * cos tilt < 0 then 0
        else cos b * cos (az - face) * sin tilt + sin b * cos tilt, declination xd)) := by
  obtain ⟨s1, s2⟩ := sinAltitude_abs f (declination xd) (hourAngle xh)
  have hsq := sinAltitude_sq f (declination xd) (hourAngle xh)
  unfold pvAngles
  simp only
  rw [mathAsin_ok s1 s2]
  simp only [bind, Except.bind]
  rw [cos_arcsin]
  generalize declination xd = d at *
  generalize hourAngle xh = h at *
  by_cases hz : sinAltitude f d h ^ 2 = 1
  · left
    refine ⟨hz, ?_⟩
    rw [if_pos]
    rw [hz]
    simp
  · have hpos : 0 < 1 - sinAltitude f d h ^ 2 := by
      rcases lt_or_eq_of_le (show sinAltitude f d h ^ 2 ≤ 1 by nlinarith [sq_nonneg (cos d * sin h), sq_nonneg (cos f * sin d - sin f * cos d * cos h)]) with hlt | he
      · linarith
      · exact absurd he hz
    have hr : 0 < √(1 - sinAltitude f d h ^ 2) := sqrt_pos.2 hpos
    have hratio : (cos d * sin h / √(1 - sinAltitude f d h ^ 2)) ^ 2 ≤ 1 := by
      rw [div_pow, sq_sqrt hpos.le, div_le_one hpos]
      nlinarith [sq_nonneg (cos f * sin d - sin f * cos d * cos h)]
    obtain ⟨r1, r2⟩ := abs_le.1 ((sq_le_one_iff_abs_le_one _).1 hratio)
    rw [if_neg hr.ne', mathAsin_ok r1 r2]
    simp only
    by_cases ht : tan f = 0
    · right; left
      exact ⟨hz, ht, by rw [if_pos ht]⟩
    · right; right
      refine ⟨hz, ht, arcsin (sinAltitude f d h),
        if cos h < tan d / tan f then π - arcsin (cos d * sin h / √(1 - sinAltitude f d h ^ 2))
          else arcsin (cos d * sin h / √(1 - sinAltitude f d h ^ 2)), ?_⟩
      rw [if_neg ht]
      simp only [pure, Except.pure, cos_arcsin]

/-- **C99.** In exact arithmetic the angles exist for every day, hour, latitude and collector, unless the sun is in the
zenith or the latitude is that of the equator: the inverse sines are never outside of their domain. -/
theorem C99_domain_partial (xd xh latitude face tilt : ℝ) :
    (∃ a, pvAngles xd xh latitude face tilt = .ok a) ↔
      (sinAltitude latitude (declination xd) (hourAngle xh) ^ 2 ≠ 1 ∧ tan latitude ≠ 0) := by
  rcases pvAngles_cases xd xh latitude face tilt with ⟨h1, h2⟩ | ⟨h1, h2, h3⟩ | ⟨h1, h2, b, az, h3⟩
  · rw [h2]; simp [h1]
  · rw [h3]; simp [h2]
  · rw [h3]; simp [h1, h2]

/-- the incident angle is a cosine -/
theorem incident_le (b a t : ℝ) : cos b * cos a * sin t + sin b * cos t ≤ 1 := by
  have e1 := sin_sq_add_cos_sq b
  have e2 := sin_sq_add_cos_sq t
  have e3 := sin_sq_add_cos_sq a
  have h1 : (cos b * cos a * sin t + sin b * cos t) ^ 2 ≤ 1 := by
    have hb : (cos b * cos a) ^ 2 ≤ cos b ^ 2 := by
      have : cos a ^ 2 ≤ 1 := by nlinarith [sq_nonneg (sin a)]
      nlinarith [sq_nonneg (cos b), mul_pow (cos b) (cos a) 2]
    have hcs : (cos b * cos a * sin t + sin b * cos t) ^ 2 ≤ ((cos b * cos a) ^ 2 + sin b ^ 2) * (sin t ^ 2 + cos t ^ 2) := by
      nlinarith [sq_nonneg (cos b * cos a * cos t - sin b * sin t)]
    rw [e2, mul_one] at hcs
    linarith
  exact (abs_le.1 ((sq_le_one_iff_abs_le_one _).1 h1)).2

theorem declination_cos (xd : ℝ) : 0 ≤ cos (declination xd) := by
  have hs := sin_le_one (2 * π / 365 * (xd - 81))
  have hs' := neg_one_le_sin (2 * π / 365 * (xd - 81))
  have hp := pi_gt_three
  apply cos_nonneg_of_neg_pi_div_two_le_of_le
  · unfold declination; linarith
  · unfold declination; linarith

theorem half_range (x : ℝ) : 0 ≤ (1 - cos x) / 2 ∧ (1 - cos x) / 2 ≤ 1 := by
  have := cos_le_one x
  have := neg_one_le_cos x
  constructor <;> linarith

theorem pvFactors_range {c : Int} {xd xh f face tilt : ℝ} {a : ℝ × ℝ × ℝ} {g : ℝ × ℝ} (ha : pvAngles xd xh f face tilt = .ok a)
    (hg : pvFactors c a tilt = .ok g) : (0 ≤ g.1 ∧ g.1 ≤ 1) ∧ (0 ≤ g.2 ∧ g.2 ≤ 1) := by
  rcases pvAngles_cases xd xh f face tilt with ⟨_, h2⟩ | ⟨_, _, h3⟩ | ⟨_, _, b, az, h3⟩
  · rw [h2] at ha; cases ha
  · rw [h3] at ha; cases ha
  · rw [h3, Except.ok.injEq] at ha
    subst ha
    unfold pvFactors at hg
    split at hg
    · rw [Except.ok.injEq] at hg
      subst hg
      refine ⟨half_range _, ?_⟩
      simp only
      split
      · exact ⟨le_refl _, by norm_num⟩
      · rename_i hn
        exact ⟨not_lt.1 hn, incident_le _ _ _⟩
    · split at hg
      · rw [Except.ok.injEq] at hg
        subst hg
        exact ⟨half_range _, declination_cos _, cos_le_one _⟩
      · split at hg
        · rw [Except.ok.injEq] at hg
          subst hg
          exact ⟨half_range _, by norm_num, by norm_num⟩
        · cases hg

/-- **C99.** For every day, hour, place and collector: the output is not negative and at most what all the direct,
diffuse and reflected light together would give; and it is proportional to the light. -/
theorem C99_bounds_partial (c : SolarCfg) (direct diffuse xd xh latitude face tilt g : ℝ) (h1 : 0 ≤ direct) (h2 : 0 ≤ diffuse)
    (h3 : 0 ≤ c.albedo) (hg : pvGeneration c direct diffuse xd xh latitude face tilt = .ok g) :
    0 ≤ g ∧ g ≤ (diffuse + c.albedo * (diffuse + direct) + direct) / 1000 ∧
    ∀ k, pvGeneration c (k * direct) (k * diffuse) xd xh latitude face tilt = .ok (k * g) := by
  unfold pvGeneration at hg
  rw [except_bind_ok] at hg
  obtain ⟨a, ha, hg⟩ := hg
  rw [except_bind_ok] at hg
  obtain ⟨f, hf, hg⟩ := hg
  simp only [pure, Except.pure, Except.ok.injEq] at hg
  obtain ⟨⟨f1, f2⟩, f3, f4⟩ := pvFactors_range ha hf
  have hl : 0 ≤ diffuse + c.albedo * (diffuse + direct) := by positivity
  refine ⟨?_, ?_, ?_⟩
  · rw [← hg]; positivity
  · rw [← hg]
    have a1 := mul_le_mul_of_nonneg_right f2 hl
    have a2 := mul_le_mul_of_nonneg_right f4 h1
    linarith
  · intro k
    unfold pvGeneration
    simp only [ha, hf, bind, Except.bind, pure, Except.pure, Except.ok.injEq]
    rw [← hg]
    ring

/-- **C99.** More direct or more diffuse light never gives less output. -/
theorem C99_more_light_partial (c : SolarCfg) (direct diffuse direct' diffuse' xd xh latitude face tilt g g' : ℝ) (h1 : direct ≤ direct')
    (h2 : diffuse ≤ diffuse') (h3 : 0 ≤ c.albedo) (hg : pvGeneration c direct diffuse xd xh latitude face tilt = .ok g)
    (hg' : pvGeneration c direct' diffuse' xd xh latitude face tilt = .ok g') : g ≤ g' := by
  unfold pvGeneration at hg hg'
  rw [except_bind_ok] at hg hg'
  obtain ⟨a, ha, hg⟩ := hg
  obtain ⟨a', ha', hg'⟩ := hg'
  rw [ha, Except.ok.injEq] at ha'
  subst ha'
  rw [except_bind_ok] at hg hg'
  obtain ⟨f, hf, hg⟩ := hg
  obtain ⟨f', hf', hg'⟩ := hg'
  rw [hf, Except.ok.injEq] at hf'
  subst hf'
  simp only [pure, Except.pure, Except.ok.injEq] at hg hg'
  obtain ⟨⟨f1, _⟩, f3, _⟩ := pvFactors_range ha hf
  rw [← hg, ← hg']
  have e : diffuse + c.albedo * (diffuse + direct) ≤ diffuse' + c.albedo * (diffuse' + direct') := by
    have := mul_le_mul_of_nonneg_left (show diffuse + direct ≤ diffuse' + direct' by linarith) h3
    linarith
  have a1 := mul_le_mul_of_nonneg_left e f1
  have a2 := mul_le_mul_of_nonneg_left h1 f3
  linarith

/-- **C99 fails** in the expectation that diffuse light counts: a fixed collector lying flat, which sees the whole sky,
gets none of it. -/
theorem C99_flat_violated (c : SolarCfg) (hc : c.collector = 1) (direct diffuse diffuse' xd xh latitude face : ℝ) :
    pvGeneration c direct diffuse xd xh latitude face 0 = pvGeneration c direct diffuse' xd xh latitude face 0 := by
  unfold pvGeneration
  cases h : pvAngles xd xh latitude face 0 with
  | error e => rfl
  | ok a =>
    simp only [bind, Except.bind]
    simp [pvFactors, hc]

/-! ### series -/

/-- the output for the `i`-th step -/
noncomputable def pvAt (c : SolarCfg) (direct diffuse xd xh : ℝ) : Except PyErr ℝ :=
  pvGeneration c direct diffuse xd xh (c.latitude * π / 180) (c.face * π / 180) (c.tilt * π / 180)

theorem pvFold_spec (c : SolarCfg) (direct diffuse : List ℝ) : ∀ (steps : List (ℝ × ℝ)) (l : List ℝ) (n : Nat) (r : List ℝ × Nat),
    steps.foldlM (pvStep c direct diffuse) (l, n) = .ok r → r.1.length = l.length ∧ r.2 = n + steps.length ∧
      (steps ≠ [] → n + steps.length ≤ l.length) ∧
      (∀ x, x < n ∨ n + steps.length ≤ x → r.1[x]? = l[x]?) ∧
      ∀ (i : Nat) (dh : ℝ × ℝ), steps[i]? = some dh → ∃ a b g, direct[n + i]? = some a ∧ diffuse[n + i]? = some b ∧
        pvAt c a b dh.1 dh.2 = .ok g ∧ r.1[n + i]? = some g := by
  intro steps
  induction steps with
  | nil =>
    intro l n r h
    simp only [List.foldlM_nil, pure, Except.pure, Except.ok.injEq] at h
    subst h
    simp
  | cons s steps ih =>
    intro l n r h
    rw [List.foldlM_cons, except_bind_ok] at h
    obtain ⟨st, h1, h2⟩ := h
    unfold pvStep at h1
    rw [except_bind_ok] at h1
    obtain ⟨a, ha, h1⟩ := h1
    rw [except_bind_ok] at h1
    obtain ⟨b, hb, h1⟩ := h1
    rw [except_bind_ok] at h1
    obtain ⟨g, hg, h1⟩ := h1
    simp only at ha hb hg h1
    have ha' : direct[n]? = some a := by
      cases hh : direct[n]? with
      | none => rw [hh] at ha; cases ha
      | some a' => rw [hh] at ha; simp only [Except.ok.injEq] at ha; rw [ha]
    have hb' : diffuse[n]? = some b := by
      cases hh : diffuse[n]? with
      | none => rw [hh] at hb; cases hb
      | some a' => rw [hh] at hb; simp only [Except.ok.injEq] at hb; rw [hb]
    split at h1
    · rename_i hlt
      rw [Except.ok.injEq] at h1
      subst h1
      obtain ⟨i1, i2, i3, i4, i5⟩ := ih _ _ _ h2
      rw [List.length_set] at i1 i3
      refine ⟨i1, by rw [i2, List.length_cons]; omega, ?_, ?_, ?_⟩
      · intro _
        rw [List.length_cons]
        rcases steps with _ | ⟨s', steps⟩
        · simp only [List.length_nil]; omega
        · have := i3 (by simp); omega
      · intro x hx
        rw [List.length_cons] at hx
        rw [i4 x (by omega), List.getElem?_set_ne (by omega)]
      · intro i dh hi
        cases i with
        | zero =>
          simp only [List.getElem?_cons_zero, Option.some.injEq] at hi
          subst hi
          refine ⟨a, b, g, ha', hb', hg, ?_⟩
          rw [Nat.add_zero, i4 n (by omega), List.getElem?_set_self hlt]
        | succ i =>
          simp only [List.getElem?_cons_succ] at hi
          obtain ⟨a', b', g', j1, j2, j3, j4⟩ := i5 i dh hi
          rw [show n + (i + 1) = n + 1 + i by omega]
          exact ⟨a', b', g', j1, j2, j3, j4⟩
    · cases h1

theorem pvSteps_get (days hours : List ℝ) : ∀ (i j : Nat) (d h : ℝ), days[i]? = some d → hours[j]? = some h →
    (days.flatMap (fun d => hours.map (fun h => (d, h))))[i * hours.length + j]? = some (d, h) := by
  induction days with
  | nil => intro i j d h hd; simp at hd
  | cons a days ih =>
    intro i j d h hd hh
    have hj := (List.getElem?_eq_some_iff.1 hh).1
    rw [List.flatMap_cons]
    cases i with
    | zero =>
      simp only [List.getElem?_cons_zero, Option.some.injEq] at hd
      subst hd
      rw [Nat.zero_mul, Nat.zero_add, List.getElem?_append_left (by simpa using hj), List.getElem?_map, hh]
      rfl
    | succ i =>
      simp only [List.getElem?_cons_succ] at hd
      have e : (i + 1) * hours.length + j = hours.length + (i * hours.length + j) := by ring
      rw [List.getElem?_append_right (by rw [List.length_map, e]; omega), List.length_map, e, Nat.add_sub_cancel_left]
      exact ih i j d h hd hh

theorem pvSteps_length (c : SolarCfg) : (pvSteps c).length = c.days.length * c.hours.length := by
  unfold pvSteps
  rw [List.length_flatMap]
  simp

/-- **C99.** If `buildPV` returns, its result has the length of the direct light; the entry of day `i` and hour `j` is the
output for that day and hour and the light at the same place; and the rest is zero. -/
theorem C99_series_partial (c : SolarCfg) (direct diffuse out : List ℝ) (h : buildPV c direct diffuse = .ok out) :
    out.length = direct.length ∧
    (∀ (i j : Nat) (d hr : ℝ), c.days[i]? = some d → c.hours[j]? = some hr → ∃ a b g,
      direct[i * c.hours.length + j]? = some a ∧ diffuse[i * c.hours.length + j]? = some b ∧
      pvAt c a b d hr = .ok g ∧ out[i * c.hours.length + j]? = some g) ∧
    (∀ x, c.days.length * c.hours.length ≤ x → x < direct.length → out[x]? = some 0) := by
  unfold buildPV at h
  rw [except_bind_ok] at h
  obtain ⟨r, hr, h⟩ := h
  simp only [pure, Except.pure, Except.ok.injEq] at h
  obtain ⟨h1, h2, h3, h4, h5⟩ := pvFold_spec c direct diffuse _ _ _ _ hr
  rw [h] at h1 h4 h5
  refine ⟨by simpa using h1, ?_, ?_⟩
  · intro i j d hh hd hj
    have := h5 (i * c.hours.length + j) (d, hh) (pvSteps_get _ _ _ _ _ _ hd hj)
    simpa using this
  · intro x x1 x2
    rw [h4 x (Or.inr (by rw [pvSteps_length]; omega)), List.getElem?_replicate, if_pos x2]

/-- **C99.** More steps than values are an error. -/
theorem C99_too_short_partial (c : SolarCfg) (direct diffuse : List ℝ) (h : direct.length < c.days.length * c.hours.length) :
    ∀ out, buildPV c direct diffuse ≠ .ok out := by
  intro out ho
  unfold buildPV at ho
  rw [except_bind_ok] at ho
  obtain ⟨r, hr, _⟩ := ho
  obtain ⟨_, _, h3, _⟩ := pvFold_spec c direct diffuse _ _ _ _ hr
  rw [pvSteps_length, List.length_replicate] at h3
  have := h3 (by
    intro e
    have := pvSteps_length c
    rw [e] at this
    simp only [List.length_nil] at this
    omega)
  omega

/-- `buildPV` returns for data of the right length, away from the equator and the zenith, and one of the three
collectors -/
theorem C99_returns_partial (c : SolarCfg) (direct diffuse : List ℝ) (h1 : c.days.length * c.hours.length ≤ direct.length)
    (h2 : c.days.length * c.hours.length ≤ diffuse.length) (h3 : tan (c.latitude * π / 180) ≠ 0)
    (h4 : ∀ d ∈ c.days, ∀ h ∈ c.hours, sinAltitude (c.latitude * π / 180) (declination d) (hourAngle h) ^ 2 ≠ 1)
    (h5 : c.collector = 1 ∨ c.collector = 2 ∨ c.collector = 3) : ∃ out, buildPV c direct diffuse = .ok out := by
  have key : ∀ (steps : List (ℝ × ℝ)) (l : List ℝ) (n : Nat), (∀ s ∈ steps, s.1 ∈ c.days ∧ s.2 ∈ c.hours) →
      n + steps.length ≤ direct.length → n + steps.length ≤ diffuse.length → l.length = direct.length →
      ∃ r, steps.foldlM (pvStep c direct diffuse) (l, n) = .ok r := by
    intro steps
    induction steps with
    | nil => intro l n _ _ _ _; exact ⟨_, rfl⟩
    | cons s steps ih =>
      intro l n hs hn hn' hl
      rw [List.length_cons] at hn hn'
      have hd : n < direct.length := by omega
      have hf : n < diffuse.length := by omega
      obtain ⟨g, hg⟩ : ∃ g, pvAt c direct[n] diffuse[n] s.1 s.2 = .ok g := by
        obtain ⟨m1, m2⟩ := hs s (by simp)
        obtain ⟨a, ha⟩ := (C99_domain_partial s.1 s.2 (c.latitude * π / 180) (c.face * π / 180) (c.tilt * π / 180)).2 ⟨h4 _ m1 _ m2, h3⟩
        obtain ⟨f, hf⟩ : ∃ f, pvFactors c.collector a (c.tilt * π / 180) = .ok f := by
          unfold pvFactors
          rcases h5 with e | e | e <;> rw [e] <;> exact ⟨_, rfl⟩
        unfold pvAt pvGeneration
        simp only [ha, hf, bind, Except.bind]
        exact ⟨_, rfl⟩
      have hstep : pvStep c direct diffuse (l, n) s = .ok (l.set n g, n + 1) := by
        unfold pvStep
        simp only [List.getElem?_eq_getElem hd, List.getElem?_eq_getElem hf, bind, Except.bind]
        unfold pvAt at hg
        rw [hg]
        simp only
        rw [if_pos (by omega)]
      rw [List.foldlM_cons, hstep]
      exact ih _ _ (fun s' hs' => hs s' (by simp [hs'])) (by omega) (by omega) (by simpa using hl)
  obtain ⟨r, hr⟩ := key (pvSteps c) (List.replicate direct.length 0) 0 (by
    intro s hs
    unfold pvSteps at hs
    rw [List.mem_flatMap] at hs
    obtain ⟨d, hd, hs⟩ := hs
    obtain ⟨h, hh, rfl⟩ := List.mem_map.1 hs
    exact ⟨hd, hh⟩) (by rw [pvSteps_length]; omega) (by rw [pvSteps_length]; omega) (by simp)
  exact ⟨r.1, by unfold buildPV; rw [hr]; rfl⟩

/-- the hypotheses are met: noon of the equinox at 45 degrees -/
example : ∃ out, buildPV ⟨45, 0.2, [81], [12], 1, 0, 45⟩ [500] [100] = .ok out := by
  have e : (45 : ℝ) * π / 180 = π / 4 := by ring
  refine C99_returns_partial _ _ _ (by simp) (by simp) ?_ ?_ (Or.inl rfl)
  · simp only [e, tan_pi_div_four]
    norm_num
  · intro d hd h hh
    simp only [List.mem_singleton] at hd hh
    subst hd
    subst hh
    simp only [e]
    unfold sinAltitude declination hourAngle
    have e1 : 2 * π / 365 * ((81 : ℝ) - 81) = 0 := by ring
    have e2 : π * (1 - (12 : ℝ) / 12) = 0 := by ring
    rw [e1, e2, sin_zero, mul_zero, sin_zero, cos_zero, cos_pi_div_four]
    have : (√2 / 2 * 1 * 1 + sin (π / 4) * 0) ^ 2 = (1 : ℝ) / 2 := by
      have h2 : (√2) ^ 2 = (2 : ℝ) := sq_sqrt (by norm_num)
      ring_nf
      rw [h2]
      norm_num
    rw [this]
    norm_num

end Pyensys
