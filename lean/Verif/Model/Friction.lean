import Verif.Model.Newton
import Verif.Model.HeatTransfer
import Mathlib.Analysis.SpecialFunctions.Log.Base
/-
Darcy friction factor of pipes (tools/fluid_properties/helpers.py 139-369) and its use in the
pressure drop equation of simple heat exchangers and pipes (components/heat_exchangers/simple.py
319-358).
-/
namespace Tespy
open Real

/-- helpers.py 265-279 `blasius`. -/
noncomputable def blasius (re : ℝ) : ℝ := 3164 / 10000 * re ^ (-(1 / 4) : ℝ)

/-- helpers.py 282-296 `hanakov`. Called with `re > 10^4` only, the logarithm is defined and the
base of the power is positive. -/
noncomputable def hanakov (re : ℝ) : ℝ := (18 / 10 * logb 10 re - 15 / 10) ^ (-2 : ℤ)

/-- `math.log10` of a float: `ValueError` (math domain) unless positive. -/
noncomputable def pyLog10 (x : ℝ) : PyRes ℝ := if 0 < x then .ok (logb 10 x) else .error .mathDomain

/-- helpers.py 299-321 `prandtl_karman`. The square root of a negative number is complex in
Python and `math.log10` of it raises a `TypeError`. For zero the logarithm is evaluated first. -/
noncomputable def prandtlKarman (re x : ℝ) : PyRes ℝ :=
  if x < 0 then .error .typeError
  else match pyLog10 (re * √x) with
    | .error e => .error e
    | .ok l => if x = 0 then .error .zeroDivision else .ok (2 * l - 8 / 10 - 1 / √x)

/-- helpers.py 324-329 `prandtl_karman_derivative`; only evaluated where `prandtl_karman` has a
value, i.e. for positive `x`. -/
noncomputable def prandtlKarmanDeriv (x : ℝ) : PyRes ℝ :=
  if x = 0 then .error .zeroDivision else .ok (1 / (x * log 10) + 1 / 2 * x ^ (-(3 / 2) : ℝ))

/-- helpers.py 332-360 `colebrook`. For negative `x` the argument of `math.log10` is complex:
`TypeError`. -/
noncomputable def colebrook (re ks d x : ℝ) : PyRes ℝ :=
  if x < 0 then .error .typeError
  else match rdiv (251 / 100) (re * √x) with
    | .error e => .error e
    | .ok q => match rdiv ks (371 / 100 * d) with
      | .error e => .error e
      | .ok r => match pyLog10 (q + r) with
        | .error e => .error e
        | .ok l => match rdiv 1 (√x) with
          | .error e => .error e
          | .ok s => .ok (2 * l + s)

/-- Arguments of the call of `newton_with_kwargs` in lines 229-244; the defaults of
tools/helpers.py 513-516 with `ERR = 10^-6` are inserted. -/
noncomputable def prandtlArgs (re : ℝ) : NewtonArgs ℝ where
  f := prandtlKarman re
  df := prandtlKarmanDeriv
  target := 0
  val0 := 2 / 100
  valmin := 1 / 100000
  valmax := 2 / 10
  maxIter := 10
  tolRel := 1 / 1000000
  tolAbs := (1 / 1000000) ^ 2
  mode := .rel

/-- Arguments of the call of `newton_with_kwargs` in lines 247-262: the derivative is the central
difference with `delta = 0.001`. -/
noncomputable def colebrookArgs (re ks d : ℝ) : NewtonArgs ℝ where
  f := colebrook re ks d
  df := centralDifference (colebrook re ks d) (1 / 1000)
  target := 0
  val0 := 2 / 1000
  valmin := 1 / 10000
  valmax := 2 / 10
  maxIter := 10
  tolRel := 1 / 1000000
  tolAbs := (1 / 1000000) ^ 2
  mode := .rel

/-- Returned value of `newton_with_kwargs`; 13 passes are always sufficient
(`C08_newton_terminates`), the first alternative does not occur. -/
def newtonReturn {K : Type _} [Field K] [LinearOrder K] (a : NewtonArgs K) : PyRes K :=
  match newton a 13 with
  | none => .error .recursionError
  | some (.error e) => .error e
  | some (.ok out) => .ok out.x

/-- helpers.py 219-262 `darcy_friction_factor`. -/
noncomputable def darcyFriction (re ks d : ℝ) : PyRes ℝ :=
  if re ≤ 2320 then rdiv 64 re
  else match rdiv (re * ks) d with
    | .error e => .error e
    | .ok q =>
      if q < 65 then
        if re ≤ 10 ^ 4 then .ok (blasius re)
        else if re < 10 ^ 6 then .ok (hanakov re)
        else newtonReturn (prandtlArgs re)
      else newtonReturn (colebrookArgs re ks d)

/-- components/heat_exchangers/simple.py 345-351: Reynolds number of the current state;
`viscI`, `viscO` are the dynamic viscosities of inlet and outlet. -/
noncomputable def pipeReynolds (m D viscI viscO : ℝ) : PyRes ℝ :=
  rdiv (4 * |m|) (π * D * (viscI + viscO) / 2)

/-- components/heat_exchangers/simple.py 340-358 `darcy_func` with the friction factor of the
current Reynolds number. -/
noncomputable def darcyFunc (i o : HStream) (viscI viscO L ks D : ℝ) : PyRes ℝ :=
  if |i.m| < 1 / 10000 then .ok (i.p - o.p)
  else match pipeReynolds i.m D viscI viscO with
    | .error e => .error e
    | .ok re => match darcyFriction re ks D with
      | .error e => .error e
      | .ok f => darcyRes i o L D f

end Tespy
