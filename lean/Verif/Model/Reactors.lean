import Verif.Model.Engine
import Verif.Model.Characteristics
/-!
Fuel cells (components/reactors/fuel_cell.py) and water electrolyzers
(components/reactors/water_electrolyzer.py): energy balances, efficiencies, reported values, busses.

Fuel cell: cooling loop `in1`/`out1`, oxygen `in2`, hydrogen `in3`, water `out2`. Electrolyzer: cooling
loop `in1`/`out1`, water `in2`, oxygen `out2`, hydrogen `out3`.

Simplifications: numbers form a field (no rounding); `x / 0 = 0` where numpy gives inf or nan (the theorems
assume that divisors are not zero). The enthalpy of a stream at reference conditions (298.15 K, 1 bar;
`h_mix_pT`) is a parameter.
-/
namespace Tespy

/-- A stream of the reaction: mass flow, enthalpy, enthalpy at reference conditions
(components/reactors/fuel_cell.py 697-712). -/
structure RStream (K : Type) where
  m : K
  h : K
  href : K

/-- The states of a reactor with its power `P.val` and the molar mass of hydrogen
(components/reactors/fuel_cell.py 218-223, 697-712). -/
structure ReactorVals (K : Type) where
  loop : CoolLoop K
  water : RStream K
  oxygen : RStream K
  hydrogen : RStream K
  P : K
  MH2 : K

/-- Values of `calc_parameters` (components/reactors/fuel_cell.py 835-846). -/
structure ReactorReport (K : Type) where
  Q : K
  pr : K
  e : K
  eta : K

section
variable {K : Type} [Field K]

/-! ### fuel cell -/

/-- fuel_cell.py 250-257 `calc_e0` -/
def cellE0 (M : K) : K := (2 * (-286000) - 2 * 0 - 0) / (2 * M)

/-- fuel_cell.py 697-712 `calc_P` -/
def cellCalcP (v : ReactorVals K) : K :=
  v.hydrogen.m * (v.hydrogen.h - v.hydrogen.href - cellE0 v.MH2)
  + v.oxygen.m * (v.oxygen.h - v.oxygen.href)
  - v.loop.m * (v.loop.hOut - v.loop.hIn)
  - v.water.m * (v.water.h - v.water.href)

/-- fuel_cell.py 443 `energy_balance_func` -/
def cellEnergyRes (v : ReactorVals K) : K := v.P - cellCalcP v

/-- fuel_cell.py 272 `eta_func` -/
def cellEtaRes (v : ReactorVals K) (eta : K) : K := v.P - eta * v.hydrogen.m * cellE0 v.MH2

/-- fuel_cell.py 322-323 `heat_func` -/
def cellHeatRes (v : ReactorVals K) (Q : K) : K := Q + v.loop.m * (v.loop.hOut - v.loop.hIn)

/-- fuel_cell.py 378 `specific_energy_func` -/
def cellSpecRes (v : ReactorVals K) (e : K) : K := v.P - v.hydrogen.m * e

/-- fuel_cell.py 549-558 `mass_flow_func` with all mass flows variable -/
def cellMassRes (MO2 : K) (v : ReactorVals K) : K × K :=
  let o2 := MO2 / (MO2 + 2 * v.MH2)
  (o2 * v.water.m - v.oxygen.m, (1 - o2) * v.water.m - v.hydrogen.m)

/-- fuel_cell.py 835-846 `calc_parameters` (without zeta) -/
def cellReport (v : ReactorVals K) : ReactorReport K :=
  let e := v.P / v.hydrogen.m
  { Q := -v.loop.m * (v.loop.hOut - v.loop.hIn)
    pr := v.loop.pOut / v.loop.pIn
    e := e
    eta := e / cellE0 v.MH2 }

/-- components/component.py 604-618 `Component.bus_func`: not overridden by fuel cells -/
def cellBus (_v : ReactorVals K) (_param : String) : PyRes K := .ok 0

/-- `FuelCell.bus_deriv`, called by `Bus.solve` (connections/bus.py 426) if the value of the bus is specified:
neither fuel cells nor components/component.py define the method. -/
def cellBusDeriv : PyRes (List (Var × K)) := .error .attributeError

/-! ### water electrolyzer -/

/-- water_electrolyzer.py 291-298 `calc_e0` -/
def elecE0 (M : K) : K := -(2 * (-286000) - 2 * 0 - 0) / (2 * M)

/-- water_electrolyzer.py 877-893 `calc_P` -/
def elecCalcP (v : ReactorVals K) : K :=
  -v.water.m * (v.water.h - v.water.href)
  + v.loop.m * (v.loop.hOut - v.loop.hIn)
  + v.oxygen.m * (v.oxygen.h - v.oxygen.href)
  + v.hydrogen.m * (v.hydrogen.h - v.hydrogen.href + elecE0 v.MH2)

/-- water_electrolyzer.py 542 `energy_balance_func` -/
def elecEnergyRes (v : ReactorVals K) : K := v.P - elecCalcP v

/-- water_electrolyzer.py 371 `eta_func` -/
def elecEtaRes (v : ReactorVals K) (eta : K) : K := v.P * eta - v.hydrogen.m * elecE0 v.MH2

/-- water_electrolyzer.py 421-422 `heat_func` -/
def elecHeatRes (v : ReactorVals K) (Q : K) : K := Q - v.loop.m * (v.loop.hIn - v.loop.hOut)

/-- water_electrolyzer.py 477 `specific_energy_consumption_func` -/
def elecSpecRes (v : ReactorVals K) (e : K) : K := v.P - v.hydrogen.m * e

/-- water_electrolyzer.py 721-733 `mass_flow_func` with all mass flows variable -/
def elecMassRes (MO2 : K) (v : ReactorVals K) : K × K :=
  let o2 := MO2 / (MO2 + 2 * v.MH2)
  (o2 * v.water.m - v.oxygen.m, (1 - o2) * v.water.m - v.hydrogen.m)

/-- water_electrolyzer.py 643-654 `eta_char_func` with the default parameter `m_out` of `out3` relative to the
design (208-209; components/component.py 479-480). `char` is the characteristic line, `mDesign` the
mass flow and `etaDesign` the efficiency of the design case. -/
def elecCharRes [DecidableEq K] (v : ReactorVals K) (etaDesign mDesign : K) (char : K → PyRes K) :
    PyRes K :=
  let expr := v.hydrogen.m / mDesign
  if expr = 0 then .error .valueError
  else match char expr with
    | .error e => .error e
    | .ok f => .ok (v.P - v.hydrogen.m * elecE0 v.MH2 / (etaDesign * f))

/-- water_electrolyzer.py 1158-1169 `calc_parameters` (without zeta) -/
def elecReport (v : ReactorVals K) : ReactorReport K :=
  let e := v.P / v.hydrogen.m
  { Q := -v.loop.m * (v.loop.hOut - v.loop.hIn)
    pr := v.loop.pOut / v.loop.pIn
    e := e
    eta := elecE0 v.MH2 / e }

/-- water_electrolyzer.py 895-945 `bus_func` -/
def elecBus (v : ReactorVals K) (param : String) : PyRes K :=
  if param = "P" then .ok (elecCalcP v)
  else if param = "Q" then .ok (-v.loop.m * (v.loop.hOut - v.loop.hIn))
  else .error .valueError

/-! ### variables of the equation system -/

/-- The connections of a reactor: cooling loop, water, oxygen, hydrogen
(components/reactors/fuel_cell.py 218-223, 549-558). -/
structure ReactorPorts where
  ci : Port
  co : Port
  w : Port
  o : Port
  g : Port

/-- The values of a reactor in the equation system; `hr` gives the enthalpy of a composition at reference
conditions. `P` is a variable of the system if not specified (fuel_cell.py 218-223,
water_electrolyzer.py 259-264). -/
def reactorOf (hr : (String → K) → K) (M : K) (s : EqState K) (q : ReactorPorts) : ReactorVals K where
  loop := loopOf s q.ci q.co
  water := ⟨s.mv q.w, s.hv q.w, hr (s.xv q.w)⟩
  oxygen := ⟨s.mv q.o, s.hv q.o, hr (s.xv q.o)⟩
  hydrogen := ⟨s.mv q.g, s.hv q.g, hr (s.xv q.g)⟩
  P := s.val (.par "P")
  MH2 := M

/-- fuel_cell.py 475-529 `energy_balance_deriv`, statement by statement -/
def cellEnergyD (hr : (String → K) → K) (M : K) (s : EqState K) (q : ReactorPorts) (k : ℕ) : Writes K :=
  wr s k (.m q.ci.m) (s.hv q.co - s.hv q.ci)
  ++ wr s k (.h q.ci.h) (-(s.mv q.ci))
  ++ wr s k (.m q.w.m) (s.hv q.w - hr (s.xv q.w))
  ++ wr s k (.h q.w.h) (s.mv q.w)
  ++ wr s k (.h q.co.h) (s.mv q.ci)
  ++ wr s k (.m q.o.m) (-(s.hv q.o - hr (s.xv q.o)))
  ++ wr s k (.h q.o.h) (-(s.mv q.o))
  ++ wr s k (.m q.g.m) (-(s.hv q.g - hr (s.xv q.g) - cellE0 M))
  ++ wr s k (.h q.g.h) (-(s.mv q.g))
  ++ wr s k (.par "P") 1

/-- water_electrolyzer.py 574-628 `energy_balance_deriv`, statement by statement -/
def elecEnergyD (hr : (String → K) → K) (M : K) (s : EqState K) (q : ReactorPorts) (k : ℕ) : Writes K :=
  wr s k (.m q.ci.m) (s.hv q.ci - s.hv q.co)
  ++ wr s k (.h q.ci.h) (s.mv q.ci)
  ++ wr s k (.m q.w.m) (s.hv q.w - hr (s.xv q.w))
  ++ wr s k (.h q.w.h) (s.mv q.w)
  ++ wr s k (.h q.co.h) (-(s.mv q.ci))
  ++ wr s k (.m q.o.m) (-(s.hv q.o - hr (s.xv q.o)))
  ++ wr s k (.h q.o.h) (-(s.mv q.o))
  ++ wr s k (.m q.g.m) (-(s.hv q.g - hr (s.xv q.g) + elecE0 M))
  ++ wr s k (.h q.g.h) (-(s.mv q.g))
  ++ wr s k (.par "P") 1

/-- fuel_cell.py 344-363, water_electrolyzer.py 443-462 `heat_deriv` -/
def reactorHeatD (s : EqState K) (q : ReactorPorts) (k : ℕ) : Writes K :=
  wr s k (.m q.ci.m) (s.hv q.co - s.hv q.ci)
  ++ wr s k (.h q.ci.h) (-(s.mv q.ci))
  ++ wr s k (.h q.co.h) (s.mv q.ci)

/-- fuel_cell.py 291-307 `eta_deriv` -/
def cellEtaD (M eta : K) (s : EqState K) (q : ReactorPorts) (k : ℕ) : Writes K :=
  wr s k (.m q.g.m) (-eta * cellE0 M) ++ wr s k (.par "P") 1

/-- water_electrolyzer.py 390-406 `eta_deriv` -/
def elecEtaD (M eta : K) (s : EqState K) (q : ReactorPorts) (k : ℕ) : Writes K :=
  wr s k (.m q.g.m) (-(elecE0 M)) ++ wr s k (.par "P") eta

/-- fuel_cell.py 397-416 `specific_energy_deriv`, water_electrolyzer.py 496-515
`specific_energy_consumption_deriv`; the specific energy is the parameter `e`. -/
def reactorSpecD (s : EqState K) (q : ReactorPorts) (k : ℕ) : Writes K :=
  wr s k (.m q.g.m) (-(s.val (.par "e"))) ++ wr s k (.par "P") 1 ++ wr s k (.par "e") (-(s.mv q.g))

/-- One entry of `bus.jacobian` in `bus_deriv` (e.g. water_electrolyzer.py 988-990): if the quantity is a variable, the
numeric derivative of the bus value is subtracted. -/
def busSub (f : EqState K → K) (s : EqState K) (v : Var) (δ : K) : List (Var × K) :=
  if s.isVar v = true then [(v, centralDiff f s v δ)] else []

/-- Value of the bus for the component value `x`: with a constant efficiency `c` it is `c · x` or, with the bus
as base, `x / c` (`calc_bus_value`, components/component.py 726-732); `c` is this factor. -/
def elecBusValue (c : K) (hr : (String → K) → K) (M : K) (q : ReactorPorts) (param : String)
    (s : EqState K) : K :=
  match elecBus (reactorOf hr M s q) param with
  | .ok x => c * x
  | .error _ => 0

/-- water_electrolyzer.py 967-1032 `bus_deriv`: the entries which are subtracted from
`bus.jacobian`, in order. -/
def elecBusDeriv (c : K) (hr : (String → K) → K) (M δm δh δP : K) (s : EqState K) (q : ReactorPorts)
    (param : String) : PyRes (List (Var × K)) :=
  let f := elecBusValue c hr M q param
  if param = "P" then
    .ok ([q.ci, q.w, q.co, q.o, q.g].flatMap (fun p =>
        (if p ≠ q.co then busSub f s (.m p.m) δm else []) ++ busSub f s (.h p.h) δh)
      ++ busSub f s (.par "P") δP)
  else if param = "Q" then
    .ok (busSub f s (.m q.ci.m) δm ++ busSub f s (.h q.co.h) δh ++ busSub f s (.h q.co.h) δh)
  else .error .valueError

end
end Tespy
