import Mathlib.Analysis.SpecialFunctions.Log.Basic
import Verif.Model.Mixture

/-!
`entropy_balance` of the components.

Simplifications: real arithmetic, `x ** 0.5` is the square root (pressure ratios are positive). The entropy as function of pressure
and enthalpy (`s_mix_ph`) is a parameter of the stream. A mean temperature without heat is `none` (nan or an exception, depending on
the type of the numbers).
-/
namespace Tespy
open Real

/-- What the entropy balances read of a connection: mass flow, pressure, enthalpy, the property function
`s_mix_ph(p, h, fluid_data, mixing_rule)` (tools/fluid_properties/functions.py 192-198) and the entropy at 1 bar, 298.15 K. -/
structure EntStream where
  m : ℝ
  p : ℝ
  h : ℝ
  sPH : ℝ → ℝ → ℝ
  sRef : ℝ

/-- Reported entropy of a connection (connections/connection.py 887-889, 953). -/
def EntStream.s (c : EntStream) : ℝ := c.sPH c.p c.h

/-- `Turbomachine.entropy_balance` and `Valve.entropy_balance` (components/turbomachinery/base.py 256-258,
components/piping/valve.py 335-337). -/
def machineSirr (i o : EntStream) : ℝ := i.m * (o.s - i.s)

/-- Entropy transferred with heat, entropy production and mean temperature of the heat (components/heat_exchangers/simple.py
950-962). -/
structure HeatEnt where
  SQ : ℝ
  Sirr : ℝ
  TmQ : Option ℝ

/-- Quotient, `none` if the divisor is zero. -/
noncomputable def quot? (a b : ℝ) : Option ℝ := if b = 0 then none else some (a / b)

/-- `SimpleHeatExchanger.entropy_balance` (components/heat_exchangers/simple.py 950-962). -/
noncomputable def simpleEnt (i o : EntStream) : HeatEnt :=
  let pStar := i.p * √(o.p / i.p)
  let s1 := i.sPH pStar i.h
  let s2 := o.sPH pStar o.h
  ⟨i.m * (s2 - s1), i.m * (o.s - i.s) - i.m * (s2 - s1), quot? (o.h - i.h) (s2 - s1)⟩

/-- One side of `HeatExchanger.entropy_balance` (components/heat_exchangers/base.py 1228-1254); `pr` is the reported pressure
ratio of the side. -/
noncomputable def sideEnt (pr : ℝ) (i o : EntStream) : HeatEnt :=
  let pStar := i.p * √pr
  let s1 := i.sPH pStar i.h
  let s2 := o.sPH pStar o.h
  let SQ := i.m * (s2 - s1)
  ⟨SQ, i.m * (o.s - i.s) - SQ, quot? (i.m * (o.h - i.h)) SQ⟩

/-- `HeatExchanger.entropy_balance` (components/heat_exchangers/base.py 1227-1258): both sides and `S_irr`; the pressure ratios are
those of `calc_parameters` (1128-1130), outlet over inlet pressure. -/
noncomputable def hexEnt (i1 o1 i2 o2 : EntStream) : HeatEnt × HeatEnt × ℝ :=
  let a := sideEnt (o1.p / i1.p) i1 o1
  let b := sideEnt (o2.p / i2.p) i2 o2
  (a, b, 0 + a.Sirr + b.Sirr + (a.SQ + b.SQ))

/-- `Merge.entropy_balance` (components/nodes/merge.py 368-377). -/
def mergeEnt (inl : List EntStream) (o : EntStream) : ℝ :=
  inl.foldl (fun a i => a - i.m * (i.s - i.sRef)) (o.m * (o.s - o.sRef))

/-- The loop `self.S_Qcomb -= ...` (components/combustion/base.py 1385-1388): the attribute is read before it is written. -/
def chamberLoop : List EntStream → Dict String ℝ → PyRes (Dict String ℝ)
  | [], attrs => .ok attrs
  | i :: is, attrs =>
    match Dict.get? attrs "S_Qcomb" with
    | none => .error .attributeError
    | some v => chamberLoop is (Dict.set attrs "S_Qcomb" (v - i.m * (i.s - i.sRef)))

/-- `CombustionChamber.entropy_balance` (components/combustion/base.py 1378-1391) for a component with attributes `attrs`; `ti` is
the thermal input. Only numbers are kept of the attributes; the division by an entropy of zero is left as in Lean. -/
noncomputable def chamberEnt (inl : List EntStream) (o : EntStream) (ti : ℝ) (attrs : Dict String ℝ) :
    PyRes (Dict String ℝ) :=
  match chamberLoop inl (Dict.set attrs "S_comb" (o.m * (o.s - o.sRef))) with
  | .error e => .error e
  | .ok a => .ok (Dict.set (Dict.set a "S_irr" 0) "T_mcomb" (ti / (o.m * (o.s - o.sRef))))

end Tespy
