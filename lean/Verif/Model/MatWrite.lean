import Verif.Model.MatJson

/-!
# Model of the writer of MATPOWER files

Source: `pyene2matpower`, pyensys/engines/pyeneI.py:759-893 (PI below).

Simplifications: the attributes are numbers (an attribute that is still None raises TypeError where it is multiplied by the base and is written as `None` elsewhere; not
modelled); `fmt` stands for Python's way of writing a number (`'{0}'.format(x)`); the file is the list of its lines, each the list of its tokens; the name of the case
in the first line is left out.
-/

namespace Pyensys

/-- what the writer uses of a bus -/
structure WBus where
  number : Rat
  type : Rat
  pd : Rat
  qd : Rat
  kv : Rat
  vmax : Rat
  vmin : Rat
  /-- shunt susceptance: an attribute that is not written -/
  shunt : Rat := 0
  deriving DecidableEq, Repr

/-- what the writer uses of a generator -/
structure WGen where
  bus : Rat
  qmax : Rat
  qmin : Rat
  status : Rat
  pmax : Rat
  pmin : Rat
  cost : List Rat
  deriving DecidableEq, Repr

/-- what the writer uses of a line (`tap` only of a transformer) -/
structure WBranch where
  f : Rat
  t : Rat
  r : Rat
  x : Rat
  b : Rat
  rate : Rat
  status : Rat
  tap : Rat := 0
  deriving DecidableEq, Repr

/-- the network object; hydropower and renewable generators are not written -/
structure WNet where
  base : Rat
  buses : List WBus
  conv : List WGen
  hydro : List WGen := []
  res : List WGen := []
  lines : List WBranch
  trafos : List WBranch
  deriving DecidableEq, Repr

/-- the 13 numbers of a bus, PI:788-807: demands in MW -/
def WBus.cells (base : Rat) (b : WBus) : List Rat := [b.number, b.type, b.pd * base, b.qd * base, 0, 0, 0, 0, 0, b.kv, 0, b.vmax, b.vmin]

/-- the 21 numbers of a conventional generator, PI:813-832: only the active limits are multiplied by the base -/
def WGen.cells (base : Rat) (g : WGen) : List Rat :=
  [g.bus, 0, 0, g.qmax, g.qmin, 0, 0, g.status, g.pmax * base, g.pmin * base, 0, 0, 0, 0, 0, 0, 0, 0, 0, 0, 0]

/-- the 13 numbers of a line, PI:838-854 -/
def WBranch.lineCells (base : Rat) (l : WBranch) : List Rat := [l.f, l.t, l.r, l.x, l.b, l.rate * base, 0, 0, 0, 0, l.status, 0, 0]

/-- the 13 numbers of a transformer, PI:858-876 -/
def WBranch.trafoCells (base : Rat) (l : WBranch) : List Rat := [l.f, l.t, l.r, l.x, l.b, l.rate * base, 0, 0, l.tap, 0, l.status, -360, 360]

/-- the numbers of a cost, PI:880-889 -/
def WGen.costCells (g : WGen) : List Rat := [2, 0, 0, (g.cost.length : Rat)] ++ g.cost

/-- tokens of a row with the semicolon glued to the last number -/
def gluedRow (fmt : Rat → Tok) (cells : List Rat) : List Tok :=
  match cells.getLast? with
  | none => [";".toList]
  | some x => cells.dropLast.map fmt ++ [fmt x ++ ";".toList]

/-- tokens of a row with blanks before the semicolon, PI:813-815: a token of its own -/
def spacedRow (fmt : Rat → Tok) (cells : List Rat) : List Tok := cells.map fmt ++ [";".toList]

/-- the lines of the file, PI:781-893 -/
def pyene2matpower (fmt : Rat → Tok) (n : WNet) : List (List Tok) :=
  let open_ := fun (s : String) => [s.toList, "=".toList, "[".toList]
  [["function".toList, "mpc".toList, "=".toList], [], ["mpc.version".toList, "=".toList, "'2';".toList], [], ["mpc.baseMVA".toList, "=".toList, fmt n.base ++ ";".toList], []] ++
    (open_ "mpc.bus" :: n.buses.map (fun b => gluedRow fmt (b.cells n.base))) ++ [["];".toList], []] ++
    (open_ "mpc.gen" :: n.conv.map (fun g => spacedRow fmt (g.cells n.base))) ++ [["];".toList], []] ++
    (open_ "mpc.branch" :: (n.lines.map (fun l => gluedRow fmt (l.lineCells n.base)) ++ n.trafos.map (fun l => gluedRow fmt (l.trafoCells n.base)))) ++ [["];".toList], []] ++
    (open_ "mpc.gencost" :: n.conv.map (fun g => gluedRow fmt g.costCells)) ++ [["];".toList], []]

end Pyensys
