import Verif.Py
import Mathlib.Analysis.SpecialFunctions.Pow.Real
import Mathlib.Analysis.SpecialFunctions.Trigonometric.Inverse

/-!
# Model of the renewable profiles

Source: pyensys/engines/pyeneR.py (RN below).

Modelled: `buildWind` (RN:101-126), `get_CF` (RN:128-178), `getPVAngles` (RN:180-205), `getPVGeneration` (RN:207-227),
`buildPV` (RN:81-99).

Simplifications: floats are real numbers, so nothing is said about rounding (`math.asin` is only left by rounding for
arguments beyond one, see C99).  A division by exactly zero is a `ZeroDivisionError`.  A negative base of the height
correction (RN:109-110) gives a complex number in Python, whose comparison raises; it is a `TypeError` here.
-/

namespace Pyensys

open Real

/-! ## wind -/

/-- `self.wind`, RN:32-40 -/
structure WindCfg where
  height : ℝ
  alpha : ℝ
  cutIn : ℝ
  rated : ℝ
  cutOut : ℝ
  park : ℝ
  model : ℕ
  tower : ℝ

/-- the power curve, RN:112-124; the array is filled with zeros before -/
noncomputable def windCurve (c : WindCfg) (ws : ℝ) : Except PyErr ℝ :=
  if ws > c.cutIn then
    if ws > c.rated then
      if ws ≤ c.cutOut then .ok c.park else .ok 0
    else if c.rated ^ c.model - c.cutIn ^ c.model = 0 then .error .zeroDivision
    else .ok (c.park * (ws ^ c.model - c.cutIn ^ c.model) / (c.rated ^ c.model - c.cutIn ^ c.model))
  else .ok 0

/-- RN:107-124 for one value -/
noncomputable def windOne (c : WindCfg) (v : ℝ) : Except PyErr ℝ :=
  if c.height = 0 then .error .zeroDivision
  else if c.tower / c.height < 0 then .error .type
  else if c.tower / c.height = 0 ∧ c.alpha < 0 then .error .zeroDivision
  else windCurve c (v * (c.tower / c.height) ^ c.alpha)

/-- `buildWind`, RN:101-126 -/
noncomputable def buildWind (c : WindCfg) (vals : List ℝ) : Except PyErr (List ℝ) := vals.mapM (windOne c)

/-! ## cooling -/

/-- `self.cooling`, RN:43-59, as far as it is used -/
structure CoolingCfg where
  types : List String
  thres : List ℝ
  shut : List ℝ
  max : List ℝ
  delta : List ℝ
  scarcity : ℝ
  lambda : List ℝ

/-- the generator asked for, RN:136-141 -/
inductive CoolingKey where
  | type (name : String)
  | index (i : Int)
  | none

/-- RN:136-141: `list.index` raises a `ValueError` -/
def coolIndex (c : CoolingCfg) (k : CoolingKey) : Except PyErr Int :=
  match k with
  | .index i => .ok i
  | .type s => if s ∈ c.types then .ok (c.types.idxOf s) else .error .value
  | .none => if "Coal" ∈ c.types then .ok (c.types.idxOf "Coal") else .error .value

/-- the data of one generator, RN:144-149 -/
structure CoolingData where
  health : ℝ
  shut : ℝ
  max : ℝ
  delta : ℝ
  scarcity : ℝ
  lambda : ℝ

/-- RN:152: temperature beyond which the factor falls faster -/
noncomputable def coolRisk (d : CoolingData) : ℝ := d.max - d.delta / d.scarcity

/-- RN:155-158 -/
noncomputable def coolSlope (d : CoolingData) : ℝ :=
  (1 - d.lambda * (d.max - d.delta / d.scarcity - d.health)) / (d.delta / d.scarcity)

/-- RN:165-176 for one temperature -/
noncomputable def coolOne (d : CoolingData) (t : ℝ) : ℝ :=
  let f := if t ≤ d.health then 1
    else if t < d.shut then
      if t ≤ coolRisk d then 1 - d.lambda * (t - d.health) else coolSlope d * (d.max - t)
    else 0
  if f > 1 then 1 else f

/-- `get_CF`, RN:128-178, for given temperatures.  (The default temperatures are a list of lists, for which the
comparison raises.) -/
noncomputable def getCF (c : CoolingCfg) (k : CoolingKey) (temps : List ℝ) : Except PyErr (List ℝ) := do
  let i ← coolIndex c k
  let health ← pyGet c.thres i
  let shut ← pyGet c.shut i
  let max ← pyGet c.max i
  let delta ← pyGet c.delta i
  let lambda ← pyGet c.lambda i
  let d : CoolingData := ⟨health, shut, max, delta, c.scarcity, lambda⟩
  if c.scarcity = 0 then .error .zeroDivision
  else if delta / c.scarcity = 0 then .error .zeroDivision
  else .ok (temps.map (coolOne d))

/-! ## sun -/

/-- `self.solar`, RN:21-29 -/
structure SolarCfg where
  latitude : ℝ
  albedo : ℝ
  days : List ℝ
  hours : List ℝ
  collector : Int
  face : ℝ
  tilt : ℝ

/-- `math.asin`: a `ValueError` outside of its domain -/
noncomputable def mathAsin (x : ℝ) : Except PyErr ℝ :=
  if x < -1 ∨ 1 < x then .error .value else .ok (arcsin x)

/-- solar declination, RN:183 -/
noncomputable def declination (xd : ℝ) : ℝ := 0.409279 * sin (2 * π / 365 * (xd - 81))

/-- hour angle, RN:186 -/
noncomputable def hourAngle (xh : ℝ) : ℝ := π * (1 - xh / 12)

/-- sine of the altitude, RN:189-191 -/
noncomputable def sinAltitude (latitude delta ha : ℝ) : ℝ := cos latitude * cos delta * cos ha + sin latitude * sin delta

/-- `getPVAngles`, RN:180-205: altitude, cosine of the incident angle, declination -/
noncomputable def pvAngles (xd xh latitude face tilt : ℝ) : Except PyErr (ℝ × ℝ × ℝ) := do
  let delta := declination xd
  let ha := hourAngle xh
  let beta ← mathAsin (sinAltitude latitude delta ha)
  if cos beta = 0 then .error .zeroDivision else do
  let az ← mathAsin (cos delta * sin ha / cos beta)
  if tan latitude = 0 then .error .zeroDivision else do
  let azimuth := if cos ha < tan delta / tan latitude then π - az else az
  let theta := cos beta * cos (azimuth - face) * sin tilt + sin beta * cos tilt
  return (if beta < 0 then 0 else beta, if theta < 0 then 0 else theta, delta)

/-- the factors of the collector model, RN:213-224 (an unknown model leaves them unbound) -/
noncomputable def pvFactors (collector : Int) (a : ℝ × ℝ × ℝ) (tilt : ℝ) : Except PyErr (ℝ × ℝ) :=
  if collector = 1 then .ok ((1 - cos tilt) / 2, a.2.1)
  else if collector = 2 then .ok ((1 - cos (π / 2 - a.1 + a.2.2)) / 2, cos a.2.2)
  else if collector = 3 then .ok ((1 - cos (π / 2 - a.1)) / 2, 1)
  else .error .name

/-- `getPVGeneration`, RN:207-227 -/
noncomputable def pvGeneration (c : SolarCfg) (direct diffuse xd xh latitude face tilt : ℝ) : Except PyErr ℝ := do
  let a ← pvAngles xd xh latitude face tilt
  let f ← pvFactors c.collector a tilt
  return (f.1 * (diffuse + c.albedo * (diffuse + direct)) + f.2 * direct) / 1000

/-- the days and hours in the order of the loops RN:92-93 -/
def pvSteps (c : SolarCfg) : List (ℝ × ℝ) := c.days.flatMap (fun d => c.hours.map (fun h => (d, h)))

/-- the body of the loops RN:92-97: the state is (array, xt) -/
noncomputable def pvStep (c : SolarCfg) (direct diffuse : List ℝ) (st : List ℝ × Nat) (dh : ℝ × ℝ) :
    Except PyErr (List ℝ × Nat) := do
  let a ← (match direct[st.2]? with | some a => .ok a | none => .error .index : Except PyErr ℝ)
  let b ← (match diffuse[st.2]? with | some a => .ok a | none => .error .index : Except PyErr ℝ)
  let g ← pvGeneration c a b dh.1 dh.2 (c.latitude * π / 180) (c.face * π / 180) (c.tilt * π / 180)
  if st.2 < st.1.length then .ok (st.1.set st.2 g, st.2 + 1) else .error .index

/-- `buildPV`, RN:81-99 -/
noncomputable def buildPV (c : SolarCfg) (direct diffuse : List ℝ) : Except PyErr (List ℝ) := do
  let r ← (pvSteps c).foldlM (pvStep c direct diffuse) (List.replicate direct.length 0, 0)
  return r.1

end Pyensys
