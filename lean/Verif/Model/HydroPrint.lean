import Verif.Model.Hydrology

/-!
# Model of the report of the water on the screen

Source: pyensys/engines/pyeneH.py (HY below): `print` HY:855-943.

Simplifications: a table is the list of the rows of numbers before they are rounded by the format `%8.4f`; the variables of a solved model have values.
-/

namespace Pyensys

/-- the tables of one scenario, HY:860-943 -/
inductive HpName where
  | wIn | wOut | fUp | fDown | soc | stor | feas
  deriving DecidableEq, Repr

/-- the order of the tables, HY:865-943 -/
def hpOrder : List HpName := [.wIn, .wOut, .fUp, .fDown, .soc, .stor, .feas]

/-- two nested loops, HY:867-875 and so on -/
def hpLoop (n k : Nat) (f : Nat → Nat → Rat) : List (List Rat) := (List.range n).map (fun x => (List.range k).map (f x))

/-- the tables of scenario `xh`, HY:865-943 -/
def hpTable (m : HyModel) (v : HyVars) (xh : Nat) : HpName → List (List Rat)
  | .wIn => hpLoop m.nodes m.conf.noTime (fun xn xt =>
      if ((m.inTab[xn]?).getD (0, 0)).1 ≠ 0 then v.inp (m.ins.length * xh + ((m.inTab[xn]?).getD (0, 0)).2) xt else 0)
  | .wOut => hpLoop m.nodes m.conf.noTime (fun xn xt =>
      if ((m.outTab[xn]?).getD (0, 0)).1 ≠ 0 then v.out (m.outs.length * xh + ((m.outTab[xn]?).getD (0, 0)).2) xt else 0)
  | .fUp => hpLoop m.rivers.length m.conf.noTime (fun xr xt => v.up (m.conRiver xh + xr) xt)
  | .fDown => hpLoop m.rivers.length m.conf.noTime (fun xr xt => v.down (m.conRiver xh + xr) xt)
  | .soc => hpLoop m.rivers.length (m.conf.noTime + 1) (fun xr xt => v.soc (m.conRiver xh + xr) xt)
  | .stor => hpLoop m.nodes m.conf.noTime (fun xn xt =>
      if ((m.stor.tab[xn]?).getD (0, 0)).1 = 0 then 0 else v.stor (xh * m.stor.cap.length + ((m.stor.tab[xn]?).getD (0, 0)).2) (m.timeStor xt).1)
  | .feas => hpLoop m.rivers.length m.conf.noTime (fun xr xt => m.slack v xr xt xh)

/-- `print(m, sh)`, HY:855-943: nothing when the engine is switched off (`settings['Flag']`); `flags` is `Print`, HY:76-84 -/
def hpPrint (flag : Bool) (flags : HpName → Bool) (m : HyModel) (v : HyVars) (sh : List Nat) : List (List (HpName × List (List Rat))) :=
  if flag = true then sh.map (fun xh => (hpOrder.filter flags).map (fun n => (n, hpTable m v xh n))) else []

end Pyensys
