import Verif.Model.Engine
import Verif.Model.CombRows

/-!
Rows of the Jacobian of the combustion engine for the specified heat of the cooling loops, the four characteristic
lines (components/combustion/engine.py 538-557, 596-615, 670-691, 756-786, 853-883, 938-961) and the busses
(engine.py 1139-1236). The row of the energy balance is `engineEnergyD` of Model/Engine.lean, those of the specified air
ratio and thermal input are taken over from the combustion chamber (Model/CombRows.lean).

Simplifications: those of Model/CombRows.lean and Model/Engine.lean (real numbers, nothing is excluded by the increment
filter, the characteristic lines are functions, the order of the fluids in a set is that of the composition).
-/
namespace Tespy
noncomputable section

/-- A combustion engine: reaction data, reference enthalpy of a composition, connections, characteristic lines, design value
of the power and specified heat of the loops (components/combustion/engine.py 252-284, 370-371: the attributes read). -/
structure EngineComp where
  d : CombData String ℝ
  hr : (String → ℝ) → ℝ
  q : EnginePorts
  c : EngineChars ℝ
  Pdesign : Option ℝ
  Q1 : ℝ
  Q2 : ℝ

/-- The values of the engine in a state (components/combustion/engine.py 351-365). -/
def EngineComp.vals (E : EngineComp) (s : EqState ℝ) : EngineVals String ℝ := engineOf E.hr s E.q E.Pdesign

/-- The equations: specified heat of a loop (components/combustion/engine.py 261-266) and the four mandatory equations of the
characteristic lines (287-311). -/
inductive EngineEq
  | specQ1
  | specQ2
  | power
  | heat1
  | heat2
  | loss
  deriving DecidableEq

/-- Residuals: engine.py 501-517 `Q1_func`, 559-575 `Q2_func`, 617-641 `tiP_char_func`, 693-724 `Q1_char_func`, 788-821
`Q2_char_func`, 885-912 `Qloss_char_func`. -/
def EngineEq.res (E : EngineComp) (s : EqState ℝ) : EngineEq → ℝ
  | .specQ1 => engineHeatSpecRes (E.vals s).loop1 E.Q1
  | .specQ2 => engineHeatSpecRes (E.vals s).loop2 E.Q2
  | .power => enginePowerRes E.d E.c (E.vals s)
  | .heat1 => engineHeat1Res E.d E.c (E.vals s)
  | .heat2 => engineHeat2Res E.d E.c (E.vals s)
  | .loss => engineLossRes E.d E.c (E.vals s)

/-- engine.py 370-371 `_get_combustion_connections`: inlets and outlet of the combustion. -/
def EngineComp.gas (E : EngineComp) : List Port := [E.q.i2, E.q.i3, E.q.o2]

/-- engine.py 684-688, 779-783, 876-880, 952-956: mass flow and variable mass fractions of the fuels of a connection. -/
def fuelMX (E : EngineComp) (s : EqState ℝ) (c : Port) : List (Var × CEntry) :=
  (.m c.m, .num) :: ((s.varFluids c).filter (fun f => f ∈ E.d.fuels)).map (fun f => (.x c.fl f, .num))

/-- engine.py 550-557, 608-615: entries for the specified heat of a loop. -/
def specQPart (s : EqState ℝ) (i o : Port) : List (Var × CEntry) :=
  [(.m i.m, .val (s.hv o - s.hv i)), (.h i.h, .val (-s.mv i)), (.h o.h, .val (s.mv i))]

/-- engine.py 769-775, 866-872, 1195-1207, 1213-1229: numerical derivatives for a loop. -/
def loopPart (i o : Port) : List (Var × CEntry) := [(.m i.m, .num), (.h i.h, .num), (.h o.h, .num)]

/-- The entries of a row in the order in which they are written
(components/combustion/engine.py 538-557, 596-615, 670-691, 756-786, 853-883, 938-961). -/
def EngineEq.row (E : EngineComp) (s : EqState ℝ) : EngineEq → List (Var × CEntry)
  | .specQ1 => specQPart s E.q.i0 E.q.o0
  | .specQ2 => specQPart s E.q.i1 E.q.o1
  | .power => E.gas.flatMap (fuelMX E s) ++ [(.par "P", .num)]
  | .heat1 => loopPart E.q.i0 E.q.o0 ++ E.gas.flatMap (fuelMX E s) ++ [(.par "P", .num)]
  | .heat2 => loopPart E.q.i1 E.q.o1 ++ E.gas.flatMap (fuelMX E s) ++ [(.par "P", .num)]
  | .loss => E.gas.flatMap (fuelMX E s) ++ [(.par "P", .num), (.par "Qloss", .num)]

/-- The assignments to the row of an equation
(components/combustion/engine.py 538-557, 596-615, 670-691, 756-786, 853-883, 938-961). -/
def EngineEq.jac (E : EngineComp) (s : EqState ℝ) (e : EngineEq) : PyRes (List (Var × ℝ)) :=
  cEval (fun s => .ok (e.res E s)) s (e.row E s)

/-- engine.py 1008-1086 `bus_func` with `Component.calc_bus_value` (component.py 694-732), which is a function `g` of the
value of the component. -/
def engineBusValue (E : EngineComp) (g : ℝ → PyRes ℝ) (param : String) (s : EqState ℝ) : PyRes ℝ :=
  match engineBus E.d E.c (E.vals s) param with
  | .error e => .error e
  | .ok x => g x

/-- engine.py 1153-1236 `bus_deriv`: the variables for which a derivative is subtracted from the entry of the bus, in order. -/
def engineBusRow (E : EngineComp) (param : String) (s : EqState ℝ) : PyRes (List (Var × CEntry)) :=
  if param = "TI" then .ok (E.gas.flatMap (numMX s))
  else if param = "P" ∨ param = "Qloss" then .ok (E.gas.flatMap (numMX s) ++ [(.par "P", .num)])
  else if param = "Q" then .ok (loopPart E.q.i0 E.q.o0 ++ loopPart E.q.i1 E.q.o1)
  else if param = "Q1" then .ok (loopPart E.q.i0 E.q.o0)
  else if param = "Q2" then .ok (loopPart E.q.i1 E.q.o1)
  else .error .valueError

/-- engine.py 1153-1236 `bus_deriv`: the summands subtracted from the entries of the bus. -/
def engineBusWrites (E : EngineComp) (g : ℝ → PyRes ℝ) (param : String) (s : EqState ℝ) : PyRes (List (Var × ℝ)) :=
  match engineBusRow E param s with
  | .error e => .error e
  | .ok l => cEval (engineBusValue E g param) s l

end
end Tespy
