import Verif.Model.Hydrology

/-!
The links between the hydrology engine and the electricity network, `pyensys/engines/main.py` (MA): the settings that `initialise` gives to the hydrology engine (MA:713-714,
793-808), the lists that connect pumps and hydropower units with the water network (MA:815-871), the conversion factors (MA:166-182) and the constraints (MA:134-158, 219-270),
with `In_From_HM` of pyeneN.py (NW:660-663).  Efficiencies and heads are positive in the theorems (the program divides by them).  Modelled with exact rationals.
-/

namespace Pyensys

/-- `connections['NodeSeqOut']`, HY:826-830: one more than the position of the output at every node, 0 if there is none -/
def nodeSeqOut (outs : List Nat) (n : Nat) : Except PyErr (List Nat) :=
  outs.zipIdx.foldlM (fun t (p : Nat × Nat) => npSet t (nodeIdx p.1 n) (p.2 + 1)) (List.replicate n 0)

/-- the devices: how many hydropower units and pumps the network has (`NM.hydropower['Number']`, `NM.pumps['Number']`), how many energy vectors there are, and head and
efficiency of every pump, HY:69-74 -/
structure HlConf where
  noHydro : Nat
  vectors : Nat
  noPump : Nat
  pumpHead : List Rat
  pumpEff : List Rat
  deriving DecidableEq, Repr

/-- the lists: `pyeneHin`, `LLHydDown`, `LLHydOut` and `LLHPumpOut` -/
structure HlLinks where
  hin : List (Nat × Nat)
  down : List Nat
  out : List (Nat × Nat)
  pumpOut : List (Nat × Nat)
  deriving DecidableEq, Repr

/-- the search `while nodes['In'][xn] != xp: xn -= 1`, MA:826-829, from the last energy vector downwards; after position 0 the negative positions -1, -2, ... are the
last ones of the list -/
def pumpInput (ins : List Nat) (vectors : Nat) (node : Nat) : Except PyErr Nat :=
  if ins.length < vectors then .error .index
  else match ((List.range vectors).reverse ++ (List.range ins.length).reverse).find? (fun i => decide (ins[i]? = some node)) with
    | some i => .ok i
    | none => .error .index

/-- one pump, MA:823-830 -/
def hinStep (m : HyModel) (vectors : Nat) (t : List (Nat × Nat)) (x : Nat) : Except PyErr (List (Nat × Nat)) := do
  let node ← npGet m.conf.pumpTo x
  if node ≠ 0 then do
    let i ← pumpInput m.ins vectors node
    npSet t i (1, x)
  else .ok t

/-- one unit, MA:838-842: the units with a river downstream -/
def downStep (m : HyModel) (l : List Nat) (x : Nat) : Except PyErr (List Nat) := do
  let u ← npGet m.conf.units x
  let c ← npGet m.net.outTab (nodeIdx u.node m.net.outTab.length)
  if 0 < c.1 then .ok (l ++ [x]) else .ok l

/-- one unit, MA:851-857: the output at the node of the unit, if there is one (the second component counts the units found; the array for them has one place per output) -/
def hydOutStep (m : HyModel) (seq : List Nat) (st : List (Nat × Nat) × Nat) (x : Nat) : Except PyErr (List (Nat × Nat) × Nat) := do
  let u ← npGet m.conf.units x
  let s ← npGet seq (nodeIdx u.node seq.length)
  if s ≠ 0 then do
    let t ← npSet st.1 (s - 1) (1, x)
    if st.2 < m.outs.length then .ok (t, st.2 + 1) else .error .index
  else .ok st

/-- `LLHydOut[xn-1][:] = [0, 0]`, MA:861-864, for a unit with a river downstream; without an output at its node `xn` is 0 and the row is the last one -/
def clearStep (m : HyModel) (seq : List Nat) (t : List (Nat × Nat)) (x : Nat) : Except PyErr (List (Nat × Nat)) := do
  let u ← npGet m.conf.units x
  let s ← npGet seq (nodeIdx u.node seq.length)
  npSet t (nodeIdx s t.length) (0, 0)

/-- one pump, MA:867-871 -/
def pumpOutStep (m : HyModel) (seq : List Nat) (t : List (Nat × Nat)) (x : Nat) : Except PyErr (List (Nat × Nat)) := do
  let node ← npGet m.conf.pumpFrom x
  let s ← npGet seq (nodeIdx node seq.length)
  if s ≠ 0 then npSet t (s - 1) (1, x) else .ok t

/-- MA:815-871 -/
def hlLinks (c : HlConf) (m : HyModel) : Except PyErr HlLinks := do
  let seq ← nodeSeqOut m.outs m.nodes
  let hin ← (List.range c.noPump).foldlM (hinStep m c.vectors) (List.replicate m.ins.length (0, 0))
  let down ← (List.range c.noHydro).foldlM (downStep m) []
  let out ← (List.range c.noHydro).foldlM (hydOutStep m seq) (List.replicate m.outs.length (0, 0), 0)
  let out' ← down.foldlM (clearStep m seq) out.1
  let po ← (List.range c.noPump).foldlM (pumpOutStep m seq) (List.replicate m.outs.length (0, 0))
  .ok ⟨hin, down, out', po⟩

/-- `EffHydro`, MA:171-175 -/
def effHydro (m : HyModel) (x : Nat) : Rat :=
  match m.conf.units[x]? with
  | some u => u.head * u.efficiency * (981 / 100) / 1000
  | none => 0

/-- `EffPump`, MA:177-180 -/
def effPump (c : HlConf) (x : Nat) : Rat := (c.pumpHead[x]?).getD 0 * (c.pumpEff[x]?).getD 0 * (981 / 100) / 1000

/-- the values of the variables of the network and of the energy balance: `vNGen`, `vNPump` (instance times number plus position, period) and `vEOut` of the node of an
instance, by instance and vector -/
structure HlVars where
  gen : Nat → Nat → Rat
  pump : Nat → Nat → Rat
  eout : Nat → Nat → Rat

/-- sizes of the network: number of generators, of conventional ones (hydropower follows), base power, weights of the periods -/
structure HlNet where
  noGen : Nat
  conv : Nat
  base : Rat
  weights : List Rat

/-- `In_From_HM`, NW:660-663: the flow that the generation of a unit needs -/
def inFromHM (m : HyModel) (n : HlNet) (w : HlVars) (xh xt x : Nat) : Rat := w.gen (xh * n.noGen + (n.conv + x)) xt * n.base / effHydro m x

/-- the flow of the pump `x` with the variable `i`, MA:231-234, 242-246 and 268-270 -/
def pumpFlow (c : HlConf) (n : HlNet) (w : HlVars) (i x xt : Nat) : Rat := w.pump i xt * n.base / effPump c x

/-- the constraints of the links, MA:134-158 with the rules 225-270, and the first pump variable of every instance, NW:551-553 -/
structure HlFeasible (c : HlConf) (m : HyModel) (l : HlLinks) (n : HlNet) (v : HyVars) (w : HlVars) : Prop where
  ini : ∀ xh < m.conf.number, ∀ xt < m.conf.noTime, w.pump (xh * (c.noPump + 1)) xt = 0
  in1 : 0 < c.noHydro → ∀ xh < m.conf.number, ∀ xv < c.vectors, ∀ h, l.hin[xv]? = some h →
    w.eout xh xv = ((List.range m.conf.noTime).map (fun xt =>
      (v.inp (m.ins.length * xh + xv) xt - ((List.range h.1).map (fun _ => pumpFlow c n w (h.2 + xh * (c.noPump + 1)) h.2 xt)).sum) * (n.weights[xt]?).getD 0)).sum * effHydro m xv
  in2 : 0 < c.noHydro → ∀ xh < m.conf.number, ∀ xv, c.vectors ≤ xv → ∀ h, l.hin[xv]? = some h → ∀ xt < m.conf.noTime,
    v.inp (m.ins.length * xh + xv) xt = ((List.range h.1).map (fun _ => pumpFlow c n w (h.2 + xh * (c.noPump + 1) + 1) h.2 xt)).sum
  out1 : 0 < c.noHydro → ∀ xh < m.conf.number, ∀ xb ∈ l.down, ∀ u, m.conf.units[xb]? = some u → ∀ xt < m.conf.noTime,
    inFromHM m n w xh xt xb ≤ ((rowRivers m.net.n2b1 ((m.net.outTab[nodeIdx u.node m.net.outTab.length]?).getD (0, 0))).map (fun r => v.up (m.conRiver xh + r) xt)).sum
  out2 : 0 < c.noHydro → ∀ xh < m.conf.number, ∀ (xn : Nat) (o p : Nat × Nat), l.out[xn]? = some o → l.pumpOut[xn]? = some p → ∀ xt < m.conf.noTime,
    ((List.range o.1).map (fun _ => inFromHM m n w xh xt o.2)).sum + ((List.range p.1).map (fun _ => pumpFlow c n w (1 + p.2 + xh * (1 + c.noPump)) p.2 xt)).sum ≤
      v.out (xn + xh * m.outs.length) xt

/-- the settings of the hydrology engine that `initialise` changes, MA:793-808: the changed settings are those of the user's object -/
def hlSettings (c : HyConf) (noTime number : Nat) (w0 : Rat) : HyConf :=
  { c with noTime := noTime, seconds := c.seconds * w0, fixed := [], number := number, linksF := (List.range number).map (fun x => (x, 0)), linksT := (List.range number).map (fun x => (x, 1)) }

/-- `initialise` of the hydrology engine within the coupled model: the number of energy vectors (MA:714), the engine, and the user's settings afterwards -/
def hlInitialise (c : HyConf) (noTime number : Nat) (w0 : Rat) : Except PyErr (Nat × HyModel × HyConf) := do
  let m ← hyInitialise (hlSettings c noTime number w0)
  .ok (c.ins.length, m, hyAfter (hlSettings c noTime number w0) m)

end Pyensys
