import Verif.Model.NumRows
import Verif.Model.CompressorMap
import Verif.Model.Engine
import Verif.Model.Reactors
import Verif.Model.DocEqs

/-!
More of the formulas printed in the LaTeX report (see Model/DocEqs.lean): the arguments of characteristic lines, lines
for pressures, compressor maps, pressures of reactors and combustion chambers, and what components add to busses.
-/
namespace Tespy
namespace Doc

noncomputable section

/-- components/component.py 516-584 `get_char_expr_doc`: the printed argument of a characteristic line; `none` for a
parameter without a text. -/
def charExpr (i o : HStream) (di d_o : HDesign) (q : CharSel) : Option ℝ :=
  if q.rel then match q.param with
    | .m => some (i.m / di.m)
    | .mOut => some (o.m / d_o.m)
    | .v => some (i.m * i.vol / di.v)
    | .pr => some (o.p * di.p / (d_o.p * i.p))
    | .other => none
  else match q.param with
    | .m => some i.m
    | .mOut => some o.m
    | .v => some (i.m * i.vol)
    | .pr => some (o.p / i.p)
    | .other => none

/-- turbomachinery/pump.py 367-384; `f` is the value of the line. -/
def flowChar (i o : HStream) (f : ℝ) : Prop := 0 = o.p - i.p - f
/-- piping/valve.py 198-225; `f` is the value of the line. -/
def dpChar (i o : HStream) (f : ℝ) : Prop := 0 = i.p - o.p - f

end

section
variable {K : Type} [Field K] [LinearOrder K]

/-- turbomachinery/compressor.py 390-420: the vectors of the map at `X`, both times `1 - igva/100`; the value at `Y` is
the pressure ratio divided by that of the design case. -/
def mapPr (c : CharMap K) (x y igva pIn pOut pInDesign pOutDesign : K) : Prop :=
  ∃ ya za f, c.evaluateX x = .ok (ya, za) ∧
    CharMap.evaluateY y (ya.map (· * (1 - igva / 100))) (za.map (· * (1 - igva / 100))) = .ok f ∧
    0 = pOut * pInDesign / (pIn * pOutDesign) - f

/-- turbomachinery/compressor.py 504-533: the second vector times `1 - igva²/10000`, the value is the isentropic
efficiency divided by that of the design case. -/
def mapEta (c : CharMap K) (x y igva eta etaDesign : K) : Prop :=
  ∃ ya za f, c.evaluateX x = .ok (ya, za) ∧
    CharMap.evaluateY y (ya.map (· * (1 - igva / 100))) (za.map (· * (1 - igva ^ 2 / 10000))) = .ok f ∧
    0 = eta / etaDesign - f

end

section
variable {F K : Type} [DecidableEq F] [Field K]

/-- combustion/base.py 432-458 -/
def combPressure (s : EqState K) (i0 i1 o : Port) : Prop := 0 = s.pv i0 - s.pv o ∧ 0 = s.pv i0 - s.pv i1
/-- reactors/water_electrolyzer.py 807-826: inlet 2, outlets 2 and 3 -/
def elecPressure (s : EqState K) (i2 o2 o3 : Port) : Prop := 0 = s.pv i2 - s.pv o2 ∧ 0 = s.pv i2 - s.pv o3
/-- reactors/fuel_cell.py 630-649: inlets 2 and 3, outlet 2 -/
def cellPressure (s : EqState K) (i2 i3 o2 : Port) : Prop := 0 = s.pv i2 - s.pv o2 ∧ 0 = s.pv i3 - s.pv o2

/-- combustion/engine.py 1088-1137; `Q`, `TI` as formulas, `P` and `Qloss` are the parameters of the engine. -/
def engineBus (d : CombData F K) (i3 i4 out : CombStream F K) (l1 l2 : CoolLoop K) (P Qloss : K) (param : String) :
    Option K :=
  if param = "TI" then some (ti d i3 i4 out)
  else if param = "P" then some P
  else if param = "Q" then some (-l1.m * (l1.hOut - l1.hIn) - l2.m * (l2.hOut - l2.hIn))
  else if param = "Q1" then some (-l1.m * (l1.hOut - l1.hIn))
  else if param = "Q2" then some (-l2.m * (l2.hOut - l2.hIn))
  else if param = "Qloss" then some Qloss
  else none

/-- reactors/water_electrolyzer.py 946-966; `P` is the parameter of the electrolyzer. -/
def elecBus (l : CoolLoop K) (P : K) (param : String) : Option K :=
  if param = "P" then some P
  else if param = "Q" then some (-l.m * (l.hOut - l.hIn))
  else none

end

end Doc
end Tespy
