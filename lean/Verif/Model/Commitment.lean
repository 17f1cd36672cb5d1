import Verif.Model.Dispatch

/-!
# Model of unit commitment, ramps, derating and profile limits of generators

Source: pyensys/engines/pyeneD.py (DV below) and pyensys/engines/pyeneN.py (NW below).

Modelled: the previous period and the table of following periods (NW:228-235, 690-693), the limits of generators with and
without unit commitment (DV:750-816, 1246-1284), minimum down and up times (DV:783-834), ramps (DV:836-850, 896-904,
124-138), baseload (DV:718-725, 1223-1227), the derating table of water cooled generators (DV:1412-1464), the limits of RES
units (NW:1011-1018, 560-566) and the selection of the settings of a generator (DV:124-158).

Simplifications: floats are rationals; the constraints are propositions about the values of the variables (functions of
position and period); a slice selects from the list of periods as Python does; the cooling model `get_CF` is a parameter
(modelled in Renewables).
-/

namespace Pyensys

/-! ## periods -/

/-- `LLTime`, NW:690-693: the period before, cyclic -/
def llTime (noTime xt : Nat) : Nat := if xt = 0 then noTime - 1 else xt - 1

/-- the loop NW:229-235 -/
def llucFrom (noTime : Nat) : Nat → Nat → List Nat
  | 0, _ => []
  | k + 1, x1 => x1 :: llucFrom noTime k (if x1 + 1 = noTime then 0 else x1 + 1)

/-- `LLUC`, NW:228-235 -/
def lluc (noTime : Nat) : List Nat := llucFrom noTime (noTime * 2) 1

/-- a bound of a Python slice: negative bounds count from the end, and bounds are clipped -/
def sliceBound (len : Nat) (i : Int) : Nat :=
  if i < 0 then (i + len).toNat else min i.toNat len

/-- the Python slice `l[a:b]` -/
def pySlice {α : Type} (l : List α) (a b : Int) : List α :=
  (l.take (sliceBound l.length b)).drop (sliceBound l.length a)

/-! ## values and rules -/

/-- the values of the variables `vNGen`, `vNGen_Bin`, `vNGen_MDT`, `vNGen_MUT` -/
structure UcVals where
  gen : Nat → Nat → Rat
  bin : Nat → Nat → Rat
  mdt : Nat → Nat → Rat
  mut' : Nat → Nat → Rat

/-- `cNEGMax_rule`, DV:750-752, skipped for RES (DV:1127-1129) -/
def genMaxRule (kind : Nat) (g : DpGen) (v : UcVals) (con xt : Nat) : Prop :=
  if kind = 2 then True else v.gen (con + g.vNGen) xt ≤ g.max

/-- `cNEGMin_rule`, DV:776-781, skipped for RES (DV:1135-1137) -/
def genMinRule (kind : Nat) (g : DpGen) (v : UcVals) (con xt : Nat) : Prop :=
  if kind = 2 then True else if g.max > 0 then v.gen (con + g.vNGen) xt ≥ g.min else True

/-- `cNEGMaxUC_rule`, DV:754-760, skipped for RES (DV:1131-1133) -/
def genMaxUCRule (kind : Nat) (g : DpGen) (v : UcVals) (con xt : Nat) : Prop :=
  if kind = 2 then True else match g.bin with
    | none => v.gen (con + g.vNGen) xt ≤ g.max
    | some b => v.gen (con + g.vNGen) xt ≤ g.max * v.bin (con + b) xt

/-- `cNEGMinUC_rule`, DV:801-807, skipped for RES (DV:1147-1149) -/
def genMinUCRule (kind : Nat) (g : DpGen) (v : UcVals) (con xt : Nat) : Prop :=
  if kind = 2 then True else match g.bin with
    | none => True
    | some b => v.gen (con + g.vNGen) xt ≥ g.min * v.bin (con + b) xt

/-- `cNEGMaxWC_rule` and `cNEGMaxUCWC_rule`, DV:762-774: the derated limits of a conventional generator -/
def genMaxWCRule (uc : Bool) (g : DpGen) (der : Nat → Rat) (v : UcVals) (con xt : Nat) : Prop :=
  if uc = true then match g.bin with
    | none => v.gen (con + g.vNGen) xt ≤ g.max
    | some b => v.gen (con + g.vNGen) xt ≤ g.max * v.bin (con + b) xt * der xt
  else v.gen (con + g.vNGen) xt ≤ g.max * der xt

/-- the limits of all generators in all periods, NW:227-232, 252-258 and DV:1246-1284; `der pos` is the derating profile
of conventional generator `pos` -/
def LimitsOk (uc cool : Bool) (der : Nat → Nat → Rat) (gens : DpGens) (v : UcVals) (con noTime : Nat) : Prop :=
  ∀ (kind : Nat) (c : List DpGen), gens.classes[kind]? = some c → ∀ (pos : Nat) (g : DpGen), c[pos]? = some g → ∀ xt < noTime,
    (if cool = true ∧ kind = 0 then genMaxWCRule uc g (der pos) v con xt
      else if uc = true then genMaxUCRule kind g v con xt else genMaxRule kind g v con xt) ∧
    (if uc = true then genMinUCRule kind g v con xt else genMinRule kind g v con xt)

/-- `cNEGMinDT1_rule`, DV:783-790; skipped for hydropower and RES (DV:1078-1080, 1139-1141) -/
def downRule1 (kind : Nat) (g : DpGen) (v : UcVals) (con noTime xt : Nat) : Prop :=
  if kind ≠ 0 then True else match g.vMDT with
    | none => True
    | some m => v.mdt (con + m) xt ≥ v.bin (con + m) (llTime noTime xt) - v.bin (con + m) xt

/-- `cNEGMinDT2_rule`, DV:792-799; skipped for hydropower and RES -/
def downRule2 (kind : Nat) (g : DpGen) (v : UcVals) (con noTime xt : Nat) : Prop :=
  if kind ≠ 0 then True else match g.vMDT with
    | none => True
    | some m => v.mdt (con + m) xt * ((g.minDown.getD 0 : Nat) : Rat) ≤
        ((pySlice (lluc noTime) ((xt : Int) - 1) ((xt : Int) + (g.minDown.getD 0 : Nat) - 1)).map (fun xL => 1 - v.bin (con + m) xL)).sum

/-- `cNEGMinUT1_rule`, DV:818-825; skipped for hydropower and RES -/
def upRule1 (kind : Nat) (g : DpGen) (v : UcVals) (con noTime xt : Nat) : Prop :=
  if kind ≠ 0 then True else match g.vMUT with
    | none => True
    | some m => v.mut' (con + m) xt ≥ v.bin (con + m) xt - v.bin (con + m) (llTime noTime xt)

/-- `cNEGMinUT2_rule`, DV:827-834; skipped for hydropower and RES -/
def upRule2 (kind : Nat) (g : DpGen) (v : UcVals) (con noTime xt : Nat) : Prop :=
  if kind ≠ 0 then True else match g.vMUT with
    | none => True
    | some m => v.mut' (con + m) xt * ((g.minUp.getD 0 : Nat) : Rat) ≤
        ((pySlice (lluc noTime) ((xt : Int) - 1) ((xt : Int) + (g.minUp.getD 0 : Nat) - 1)).map (fun xL => v.bin (con + m) xL)).sum

/-- the rules on minimum down and up times of all conventional generators in all periods, NW:237-248 -/
def TimesOk (gens : DpGens) (v : UcVals) (con noTime : Nat) : Prop :=
  ∀ (kind : Nat) (c : List DpGen), gens.classes[kind]? = some c → ∀ g ∈ c, ∀ xt < noTime,
    downRule1 kind g v con noTime xt ∧ downRule2 kind g v con noTime xt ∧ upRule1 kind g v con noTime xt ∧ upRule2 kind g v con noTime xt

/-- the domains of the variables of unit commitment, NW:369-378 -/
def DomainsOk (v : UcVals) : Prop := ∀ i t, (v.bin i t = 0 ∨ v.bin i t = 1) ∧ 0 ≤ v.gen i t ∧ 0 ≤ v.mdt i t ∧ v.mdt i t ≤ 1 ∧ 0 ≤ v.mut' i t ∧ v.mut' i t ≤ 1

/-! ## ramps -/

/-- `GenClass.initialise`, DV:896-904: the ramp limit per unit from the setting and the capacity per unit -/
def rampLimit (setting : Option Rat) (max : Rat) : Rat := match setting with
  | none => max + 1
  | some r => if r ≤ 0 ∨ r ≥ 1 then max + 1 else max * r

/-- `cNGenRampDown_rule` and `cNGenRampUp_rule`, DV:836-850 -/
def rampRule (ramp max : Rat) (out : Nat → Rat) (noTime xt : Nat) : Prop :=
  if ramp < max then out xt - out (llTime noTime xt) ≤ ramp ∧ out (llTime noTime xt) - out xt ≤ ramp else True

/-- the ramp setting of conventional generator `no`, DV:124-138: `mpcRamp` is the column of the case, if any -/
def rampSetting (conv : List Rat) (mpcRamp : Option (List Rat)) (no : Nat) : Except PyErr (Option Rat) :=
  match conv with
  | [] => match mpcRamp with
    | some l => do
      let r ← pyGet l (no : Int)
      .ok (some r)
    | none => .ok none
  | [r] => .ok (some r)
  | _ => if no ≤ conv.length then do
      let r ← pyGet conv (no : Int)
      .ok (some r)
    else .ok none

/-- the ramp settings of the first `n` generators: the configuration stops at the first error -/
def rampSettings (conv : List Rat) (mpcRamp : Option (List Rat)) (n : Nat) : Except PyErr (List (Option Rat)) :=
  (List.range n).mapM (rampSetting conv mpcRamp)

/-- the minimum up (down) time of conventional generator `no`, DV:140-149 -/
def timeSetting (conv : List Nat) (no : Nat) : Except PyErr (Option Nat) :=
  match conv with
  | [] => .ok none
  | [r] => .ok (some r)
  | _ => do
      let r ← pyGet conv (no : Int)
      .ok (some r)

/-! ## baseload -/

/-- `cNEBaseload_rule`, DV:718-725 and 1223-1227 -/
def baseloadRule (share : Rat) (w : Nat → Rat) (wSum : Rat) (out : Nat → Rat) (noTime xt : Nat) : Prop :=
  if share > 0 then out xt ≥ ((List.range noTime).map out).sum * share * (w xt / wSum) else True

/-- the baseload constraints of a generator, NW:221-226 and 471-476: declared only if the hydropower units have baseload -/
def BaseloadOk (hydroBaseload : List Rat) (share : Rat) (weights : List Rat) (out : Nat → Rat) (noTime : Nat) : Prop :=
  if hydroBaseload.sum > 0 then
    ∀ xt < noTime, baseloadRule share (fun t => (weights[t]?).getD 0) weights.sum out noTime xt
  else True

/-! ## cooling -/

/-- the list with a value at a position, as numpy assigns it (the position is in range) -/
def derSet (l : List Int) (i : Nat) (v : Int) : List Int := l.set i v

/-- `np.zeros(n)` with the values given, DV:1417-1419 and 1436-1438: too many values raise -/
def zerosWith (n : Nat) (vals : List Int) : Except PyErr (List Int) :=
  if n < vals.length then .error .index else .ok (vals ++ List.replicate (n - vals.length) 0)

/-- the state of the loop DV:1446-1464: `Gen2Der`, the types and the profiles of the simulations -/
structure DerState where
  gen2der : List Int
  types : List Int
  profs : List Int
  deriving DecidableEq, Repr

/-- the inner loop DV:1449-1464 for generator `x1` from `x2` on (`k` steps are left before `x2 = x1`) -/
def derInner (axType : List Int) (x1 : Nat) : Nat → DerState → DerState
  | 0, s =>
    let t := (axType[x1]?).getD 0
    let p := (s.gen2der[x1]?).getD 0
    ⟨derSet s.gen2der x1 (s.types.length : Nat), s.types ++ [t], s.profs ++ [p]⟩
  | k + 1, s =>
    let x2 := x1 - (k + 1)
    if axType[x1]? = axType[x2]? ∧ s.gen2der[x1]? = s.gen2der[x2]? then ⟨derSet s.gen2der x1 (x2 : Nat), s.types, s.profs⟩
    else derInner axType x1 k s

/-- the loop DV:1446-1464 -/
def derLoop (axType : List Int) (n : Nat) (s : DerState) : DerState :=
  (List.range n).foldl (fun s x1 => derInner axType x1 x1 s) s

/-- the derating profile of every conventional generator, as the pair (temperature profile, type) that is simulated,
DV:1412-1470 and 1249-1251; `conv` is the number of conventional generators -/
def derating (conv : Nat) (gen2Temp genType : List Int) (noProfiles : Nat) (x : Nat) : Except PyErr (Int × Int) := do
  let g2d ← zerosWith conv gen2Temp
  match genType with
  | [] =>
    let d ← pyGet g2d (x : Int)
    let p ← pyGet ((List.range noProfiles).map (fun (i : Nat) => (i : Int))) d
    .ok (p, 0)
  | _ =>
    let ax ← zerosWith conv genType
    let s := derLoop ax conv ⟨g2d, [], []⟩
    let d ← pyGet s.gen2der (x : Int)
    let t ← pyGet s.types d
    let p ← pyGet s.profs d
    let _ ← pyGet (List.range noProfiles) p
    .ok (p, t)

/-! ## RES -/

/-- the default `LinksRes`, NW:1150-1166 -/
def defaultLinksRes (noProf : Int) (noRES number : Nat) : List Int :=
  if noProf = 1 then (List.range (number * noRES)).map (fun _ => 1) else defaultLinks noRES number

/-- the limit of RES unit `xg` in period `xt` of scenario `xh`, NW:1011-1018 and 560-566 -/
def resLimit (links : List Int) (res : List Rat) (maxs : List Rat) (noTime noRES xg xt xh : Nat) : Except PyErr Rat := do
  let l ← pyGet links ((xg + xh * noRES : Nat) : Int)
  let p ← pyGet res ((noTime : Int) * (l - 1) + xt)
  let m ← pyGet maxs (xg : Int)
  .ok (p * m)

end Pyensys
