import Verif.Model.Combustion
import Verif.Model.Eqs
import Mathlib.Data.Real.Basic
import Mathlib.Data.List.Flatten

/-!
Rows of the Jacobian of the combustion chambers (components/combustion/base.py 779-806, 887-910, 955-974, 1058-1087 and
1164-1188; diabatic.py takes them over). The combustion engine has other rows.

Simplifications: real numbers. The containers of the connections are those of `Eqs.lean`. The enthalpy of a composition
at the reference conditions is a parameter `href`. The guard `is_variable(…, increment_filter)` is modelled for a filter
which excludes nothing. Mass fractions of fluids which are missing in a composition (`KeyError` in the code) have a value.
-/
namespace Tespy
noncomputable section

/-- A combustion chamber: reaction data, connections, reference enthalpy of a composition, efficiency (1 for
`CombustionChamber`, `eta` of `DiabaticCombustionChamber`), specified lambda and thermal input
(components/combustion/base.py 251-301, 496-680 and 806-1117: the attributes read there). -/
structure CombComp where
  d : CombData String ℝ
  inl : List Port
  out : Port
  href : (String → ℝ) → ℝ
  eta : ℝ
  lam : Option ℝ
  ti : ℝ

/-- The stream of a connection in a state (components/combustion/base.py 837-855: the values read from a connection). -/
def cStream (C : CombComp) (s : EqState ℝ) (c : Port) : CombStream String ℝ :=
  ⟨s.mv c, s.xv c, s.hv c, C.href (s.xv c)⟩

/-- The equations. `lambda` and `ti` are the equations of the specified values
(components/combustion/base.py 191-204 and the parameters `lamb`, `ti` 155-173). -/
inductive CombEq
  | stoich (f : String)
  | energy
  | lambda (spec : ℝ)
  | ti

/-- Residuals: base.py 496-680 `stoichiometry`, 806-855 and diabatic.py 280-329 `energy_balance_func`, base.py 911-928
`lambda_func`, 1016-1029 `ti_func`. -/
def CombEq.res (C : CombComp) (s : EqState ℝ) : CombEq → PyRes ℝ
  | .stoich f => stoichRes C.d (C.inl.map (cStream C s)) (cStream C s C.out) C.lam f
  | .energy => .ok (combEnergyRes C.d (C.inl.map (cStream C s)) (cStream C s C.out) C.eta)
  | .lambda l => lambdaRes C.d (C.inl.map (cStream C s)) l
  | .ti => .ok (C.ti - combTi C.d (C.inl.map (cStream C s)) (cStream C s C.out))

/-- An entry of a row: a numerical derivative or a value
(components/combustion/base.py 797-805, 900-910: the two kinds of right hand sides). -/
inductive CEntry
  | num
  | val (x : ℝ)

/-- base.py 797-805, 970-974, 1178-1188: numerical derivatives for the mass flow and all variable mass fractions. -/
def numMX (s : EqState ℝ) (c : Port) : List (Var × CEntry) :=
  (.m c.m, .num) :: (s.varFluids c).map (fun f => (.x c.fl f, .num))

/-- base.py 900-910: entries of the energy balance for a connection. -/
def energyPart (s : EqState ℝ) (sign : ℝ) (c : Port) : List (Var × CEntry) :=
  [(.m c.m, .num), (.p c.p, .num), (.h c.h, .val (sign * s.mv c))]

/-- base.py 1070-1087: entries of the thermal input for a connection, `sign` is -1 for inlets and 1 for the outlet. -/
def tiPart (C : CombComp) (s : EqState ℝ) (sign : ℝ) (c : Port) : List (Var × CEntry) :=
  (.m c.m, .val (∑ f ∈ C.d.fuels, sign * (s.xv c f * C.d.LHV f)))
    :: ((s.varFluids c).filter (fun f => f ∈ C.d.fuels)).map (fun f => (.x c.fl f, .val (sign * s.mv c * C.d.LHV f)))

/-- The entries of a row in the order in which they are written
(components/combustion/base.py 779-806, 887-910, 955-974, 1058-1087). -/
def CombEq.row (C : CombComp) (s : EqState ℝ) : CombEq → List (Var × CEntry)
  | .stoich _ => (C.inl ++ [C.out]).flatMap (numMX s)
  | .energy => C.inl.flatMap (energyPart s 1) ++ energyPart s (-1) C.out
  | .lambda _ => C.inl.flatMap (numMX s)
  | .ti => C.inl.flatMap (tiPart C s (-1)) ++ tiPart C s 1 C.out

/-- The state with another value of a variable (tools/helpers.py 422-459: the value moved by `_numeric_deriv`). -/
def cPut (s : EqState ℝ) (v : Var) (t : ℝ) : EqState ℝ := { s with val := Function.update s.val v t }

/-- tools/helpers.py 410-459: the two values of a variable at which a residual is evaluated, and the width by which the
difference is divided. Mass fractions stay between 0 and 1. The increment of component parameters (helpers.py 410-420) is that
of `P` and `Qloss` of the combustion engine (engine.py 260, 267: `d=1`), other parameters do not occur. -/
def cUp (x : ℝ) : Var → ℝ
  | .m _ => x + 1 / 10000
  | .p _ => x + 1 / 10
  | .h _ => x + 1 / 10
  | .x _ _ => if x + 1 / 100000 ≤ 1 then x + 1 / 100000 else 1
  | .par _ => x + 1
/-- tools/helpers.py 416, 434-437, 456: second value. -/
def cLow (x : ℝ) : Var → ℝ
  | .m _ => x - 1 / 10000
  | .p _ => x - 1 / 10
  | .h _ => x - 1 / 10
  | .x i f => if 0 ≤ cUp x (.x i f) - 2 * (1 / 100000) then cUp x (.x i f) - 2 * (1 / 100000) else 0
  | .par _ => x - 1
/-- tools/helpers.py 418, 445, 458: divisor. -/
def cWidth : Var → ℝ
  | .m _ => 2 * (1 / 10000)
  | .p _ => 2 * (1 / 10)
  | .h _ => 2 * (1 / 10)
  | .x _ _ => 2 * (1 / 100000)
  | .par _ => 2

/-- tools/helpers.py 422-459: numerical derivative of a residual. -/
def cNumeric (g : EqState ℝ → PyRes ℝ) (s : EqState ℝ) (v : Var) : PyRes ℝ :=
  match g (cPut s v (cUp (s.val v) v)) with
  | .error e => .error e
  | .ok up => match g (cPut s v (cLow (s.val v) v)) with
    | .error e => .error e
    | .ok low => .ok ((up - low) / cWidth v)

/-- Value of an entry (components/combustion/base.py 797-805 numerical, 900-910 values). -/
def cValue (g : EqState ℝ → PyRes ℝ) (s : EqState ℝ) (v : Var) : CEntry → PyRes ℝ
  | .num => cNumeric g s v
  | .val x => .ok x

/-- Entries are evaluated in order, only for variables
(components/combustion/base.py 779-806, 887-910: `if self.is_variable(...)` before each assignment). -/
def cEval (g : EqState ℝ → PyRes ℝ) (s : EqState ℝ) : List (Var × CEntry) → PyRes (List (Var × ℝ))
  | [] => .ok []
  | e :: l =>
    if s.isVar e.1 then
      match cValue g s e.1 e.2 with
      | .error e => .error e
      | .ok x => match cEval g s l with
        | .error e => .error e
        | .ok r => .ok ((e.1, x) :: r)
    else cEval g s l

/-- The assignments to the row of an equation (base.py 779-806, 887-910, 955-974, 1058-1087). -/
def CombEq.jac (C : CombComp) (s : EqState ℝ) (e : CombEq) : PyRes (List (Var × ℝ)) :=
  cEval (fun s => e.res C s) s (e.row C s)

/-- What an assignment `self.jacobian[k, col] = value` leaves: the last value, 0 without assignment
(components/combustion/base.py 797-805, collected in networks/network.py 2400-2403). -/
def rowValue (w : List (Var × ℝ)) (v : Var) : ℝ := w.foldl (fun a e => if e.1 = v then e.2 else a) 0

/-- `bus_func` 1118-1138 with `Component.calc_bus_value` (component.py 694-732), which is a function `g` of the thermal
input. -/
def combBusValue (C : CombComp) (g : ℝ → PyRes ℝ) (s : EqState ℝ) : PyRes ℝ :=
  g (combTi C.d (C.inl.map (cStream C s)) (cStream C s C.out))

/-- `bus_deriv` 1164-1188: the summands subtracted from the entries of the bus. -/
def combBusWrites (C : CombComp) (g : ℝ → PyRes ℝ) (s : EqState ℝ) : PyRes (List (Var × ℝ)) :=
  cEval (combBusValue C g) s ((C.inl ++ [C.out]).flatMap (numMX s))

/-- What `bus.jacobian[col] -= value` leaves if the entry starts with 0 (components/combustion/base.py 1164-1188). -/
def busEntry (w : List (Var × ℝ)) (v : Var) : ℝ := w.foldl (fun a e => if e.1 = v then a - e.2 else a) 0

end

end Tespy
