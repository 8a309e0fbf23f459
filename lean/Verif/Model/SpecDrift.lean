import Verif.Model.HeatTransfer
import Verif.Model.Reactors

/-!
What the postprocessing of a calculation does to the values specified for components: `Network.postprocessing` calls
`calc_parameters` of every component (networks/network.py 2487-2492), also if the calculation stopped at the maximum number
of iterations without convergence (networks/network.py 1965-2012), and these methods assign `val` of the parameters whether
or not they are specified.

Simplifications: real numbers; pressure drops are SI values (the conversion to and from the unit of the network is the
subject of C01); the results of a component are stored all or not at all if an exception occurs; parameters without an
equation of their own (`td_log`, `eff_max`) are not part of the table; the `zeta` of reactors is left out.
-/
namespace Tespy

noncomputable section

/-- The state of a component when a calculation stops (converged or not). `his` is the enthalpy after isentropic change of
state; `f` are the temperature specifications of the connections of a condenser; `Tamb` the ambient temperature, if
specified
(the values read by the `calc_parameters` methods cited at `EndState.results`, called in networks/network.py 2487-2492). -/
inductive EndState
  | hex (s : HexState)
  | condenser (f : TSet) (s : HexState)
  /-- pumps and compressors -/
  | pump (i o : HStream) (his : ℝ)
  | turbine (i o : HStream) (his : ℝ)
  | valve (i o : HStream)
  /-- simple heat exchangers and pipes -/
  | simple (i o : HStream) (Tamb : Option ℝ)
  | fuelCell (v : ReactorVals ℝ)
  | electrolyzer (v : ReactorVals ℝ)

/-- The assignments of heat_exchangers/base.py 1117-1178 and condenser.py 471-534, by parameter name. -/
def hexWrites (r : HexResults) : List (String × Option ℝ) :=
  [("Q", some r.Q), ("ttd_u", some r.ttdU), ("ttd_l", some r.ttdL), ("ttd_min", some r.ttdMin),
   ("pr1", some r.pr1), ("zeta1", some r.zeta1), ("dp1", some r.dp1),
   ("pr2", some r.pr2), ("zeta2", some r.zeta2), ("dp2", some r.dp2),
   ("kA", r.kA), ("eff_hot", r.effHot), ("eff_cold", r.effCold)]

/-- The assignments of fuel_cell.py 835-846 and water_electrolyzer.py 1158-1169: the power is not among them. -/
def reactorWrites (v : ReactorVals ℝ) (r : ReactorReport ℝ) : PyRes (List (String × Option ℝ)) :=
  if v.loop.pIn = 0 ∨ v.hydrogen.m = 0 ∨ v.P = 0 then .error .zeroDivision
  else .ok [("Q", some r.Q), ("pr", some r.pr), ("e", some r.e), ("eta", some r.eta)]

/-- `calc_parameters` of the components: the assignments to `val` (`none` is nan), or the exception.
Heat exchangers base.py 1117-1178, condenser.py 471-534; pumps pump.py 502-517, compressors compressor.py 650-665, both
after turbomachinery/base.py 237-241; turbines turbine.py 522-529; valves valve.py 316-321; simple heat exchangers
simple.py 886-910; fuel_cell.py 835-846; water_electrolyzer.py 1158-1169. -/
def EndState.results : EndState → PyRes (List (String × Option ℝ))
  | .hex s => match hexCalc false s with
    | .error e => .error e
    | .ok r => .ok (hexWrites r)
  | .condenser _ s => match hexCalc true s with
    | .error e => .error e
    | .ok r => .ok (hexWrites r)
  | .pump i o his => match prReported i o, pumpEtaReported i o his with
    | .error e, _ => .error e
    | _, .error e => .error e
    | .ok pr, .ok eta => .ok [("P", some (turboPReported i o)), ("pr", some pr), ("eta_s", some eta)]
  | .turbine i o his => match prReported i o, turbineEtaReported i o his with
    | .error e, _ => .error e
    | _, .error e => .error e
    | .ok pr, .ok eta => .ok [("P", some (turboPReported i o)), ("pr", some pr), ("eta_s", some eta)]
  | .valve i o => match prReported i o, calcZeta i o with
    | .error e, _ => .error e
    | _, .error e => .error e
    | .ok pr, .ok z => .ok [("pr", some pr), ("zeta", some z)]
  | .simple i o none => match prReported i o, calcZeta i o with
    | .error e, _ => .error e
    | _, .error e => .error e
    | .ok pr, .ok z => .ok [("Q", some (i.m * (o.h - i.h))), ("pr", some pr), ("zeta", some z)]
  | .simple i o (some Ta) => match prReported i o, calcZeta i o, simpleKAReported i o Ta with
    | .error e, _, _ => .error e
    | _, .error e, _ => .error e
    | _, _, .error e => .error e
    | .ok pr, .ok z, .ok kA =>
      .ok [("Q", some (i.m * (o.h - i.h))), ("pr", some pr), ("zeta", some z), ("kA", some kA)]
  | .fuelCell v => reactorWrites v (cellReport v)
  | .electrolyzer v => reactorWrites v (elecReport v)

/-- Residual of the equation a specified parameter stands for, with the value `x` of the parameter; `none`: the component
has no equation of that name. Pressure ratio component.py 1030-1031, zeta component.py 1143-1156, `dp` component.py
1258-1261; heat of simple heat exchangers simple.py 271-273 `energy_balance_func`; the others as cited at the functions. -/
def EndState.residual : EndState → String → ℝ → Option (PyRes ℝ)
  | .hex s, n, x =>
    if n = "Q" then some (.ok (hexQRes s x))
    else if n = "ttd_u" then some (.ok (hexTtdURes false s x))
    else if n = "ttd_l" then some (.ok (hexTtdLRes s x))
    else if n = "ttd_min" then some (.ok (hexTtdMinRes s x))
    else if n = "pr1" then some (.ok (prRes s.i1 s.o1 x))
    else if n = "pr2" then some (.ok (prRes s.i2 s.o2 x))
    else if n = "dp1" then some (.ok (dpRes s.i1 s.o1 x))
    else if n = "dp2" then some (.ok (dpRes s.i2 s.o2 x))
    else if n = "zeta1" then some (zetaRes s.i1 s.o1 x)
    else if n = "zeta2" then some (zetaRes s.i2 s.o2 x)
    else if n = "kA" then some (hexKARes s x)
    else if n = "eff_hot" then some (hexEffHotRes s x)
    else if n = "eff_cold" then some (hexEffColdRes s x)
    else none
  | .condenser f s, n, x =>
    if n = "Q" then some (.ok (hexQRes s x))
    else if n = "ttd_u" then some (.ok (hexTtdURes true s x))
    else if n = "ttd_l" then some (.ok (hexTtdLRes s x))
    else if n = "ttd_min" then some (.ok (hexTtdMinRes s x))
    else if n = "pr1" then some (.ok (prRes s.i1 s.o1 x))
    else if n = "pr2" then some (.ok (prRes s.i2 s.o2 x))
    else if n = "dp1" then some (.ok (dpRes s.i1 s.o1 x))
    else if n = "dp2" then some (.ok (dpRes s.i2 s.o2 x))
    else if n = "zeta1" then some (zetaRes s.i1 s.o1 x)
    else if n = "zeta2" then some (zetaRes s.i2 s.o2 x)
    else if n = "kA" then some (condKARes f s x)
    else if n = "eff_hot" then some (hexEffHotRes s x)
    else if n = "eff_cold" then some (hexEffColdRes s x)
    else none
  | .pump i o his, n, x =>
    if n = "P" then some (.ok (turboPRes i o x))
    else if n = "pr" then some (.ok (prRes i o x))
    else if n = "eta_s" then some (.ok (pumpEtaRes i o his x))
    else none
  | .turbine i o his, n, x =>
    if n = "P" then some (.ok (turboPRes i o x))
    else if n = "pr" then some (.ok (prRes i o x))
    else if n = "eta_s" then some (.ok (turbineEtaRes i o his x))
    else none
  | .valve i o, n, x =>
    if n = "pr" then some (.ok (prRes i o x))
    else if n = "zeta" then some (zetaRes i o x)
    else none
  | .simple i o Tamb, n, x =>
    if n = "Q" then some (.ok (i.m * (o.h - i.h) - x))
    else if n = "pr" then some (.ok (prRes i o x))
    else if n = "zeta" then some (zetaRes i o x)
    else if n = "kA" then match Tamb with
      | none => none
      | some Ta => some (simpleKARes i o Ta x)
    else none
  | .fuelCell v, n, x =>
    if n = "Q" then some (.ok (cellHeatRes v x))
    else if n = "pr" then some (.ok (v.loop.pIn * x - v.loop.pOut))
    else if n = "e" then some (.ok (cellSpecRes v x))
    else if n = "eta" then some (.ok (cellEtaRes v x))
    else none
  | .electrolyzer v, n, x =>
    if n = "Q" then some (.ok (elecHeatRes v x))
    else if n = "pr" then some (.ok (v.loop.pIn * x - v.loop.pOut))
    else if n = "e" then some (.ok (elecSpecRes v x))
    else if n = "eta" then some (.ok (elecEtaRes v x))
    else none

/-- A parameter of a component: `val` (`none`: nan) and `is_set` (tools/data_containers.py 226-259). -/
structure CompParam where
  val : Option ℝ
  isSet : Bool

/-- The parameters of a component by name (tools/data_containers.py 257-316). -/
abbrev ParamTable := String → CompParam

/-- `self.get_attr(name).val = value` (networks/network.py 2487-2492, e.g. components/heat_exchangers/base.py 1117-1178). -/
def ParamTable.put (t : ParamTable) (w : String × Option ℝ) : ParamTable :=
  fun n => if n = w.1 then { t n with val := w.2 } else t n

/-- networks/network.py 2487-2492: the results of one calculation are stored. -/
def ParamTable.store (t : ParamTable) (e : EndState) : ParamTable × Option PyErr :=
  match e.results with
  | .error er => (t, some er)
  | .ok l => (l.foldl ParamTable.put t, none)

/-- How a call of `Network.solve` ends (networks/network.py 1965-2012): postprocessing takes place unless the matrix is
singular or there was no progress. -/
inductive SolveEnd
  | linDep
  | noProgress
  /-- convergence, or the maximum number of iterations without convergence -/
  | postprocessed (e : EndState)

/-- Effect of one call of `Network.solve` on the parameters of a component (networks/network.py 1990-2010). -/
def ParamTable.solve (t : ParamTable) : SolveEnd → ParamTable × Option PyErr
  | .linDep => (t, none)
  | .noProgress => (t, none)
  | .postprocessed e => t.store e

/-- A sequence of calls, up to the first exception (calls of networks/network.py 1852-2012). -/
def ParamTable.solves (t : ParamTable) : List SolveEnd → ParamTable × Option PyErr
  | [] => (t, none)
  | r :: l => match t.solve r with
    | (t', some er) => (t', some er)
    | (t', none) => ParamTable.solves t' l

end

end Tespy
