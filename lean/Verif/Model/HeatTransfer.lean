import Verif.Model.Py
import Mathlib.Analysis.SpecialFunctions.Log.Basic
import Mathlib.Analysis.SpecialFunctions.Sqrt
import Mathlib.Analysis.SpecialFunctions.Pow.Real
import Mathlib.Analysis.Real.Pi.Bounds

/-!
Parameter equations (residuals) and reported parameters of heat exchangers, condensers, simple
heat exchangers, valves and turbomachines.

Simplifications: numbers are real numbers (no rounding, no infinities; `nan` is `none`).
Temperatures, specific volumes, isentropic outlet enthalpies and the enthalpies needed for the
effectiveness are functions of the connection states evaluated by CoolProp; here they are data of
the state (`calc_T()` and the `T.val_SI` written by `calc_results` for the same state coincide, the
same holds for `calc_vol`).
-/
namespace Tespy

noncomputable section

/-- The state of a connection seen by the parameter equations: mass flow, pressure, enthalpy,
temperature and specific volume in SI units (the values read in components/heat_exchangers/base.py 443-472). -/
structure HStream where
  m : ℝ
  p : ℝ
  h : ℝ
  T : ℝ
  vol : ℝ

/-- `(a - b) / math.log(a / b)` with Python's exceptions: `ZeroDivisionError` for `b = 0` and for
`log = 0`, `ValueError: math domain error` for a non-positive argument (components/heat_exchangers/base.py 464-472). -/
def logQuot (a b : ℝ) : PyRes ℝ :=
  if b = 0 then .error .zeroDivision
  else if a / b ≤ 0 then .error .mathDomain
  else if Real.log (a / b) = 0 then .error .zeroDivision
  else .ok ((a - b) / Real.log (a / b))

/-- `a / b` for floats (Python division, e.g. components/component.py 1092-1099). -/
def rdiv (a b : ℝ) : PyRes ℝ := if b = 0 then .error .zeroDivision else .ok (a / b)

/-- heat_exchangers/base.py 455-456, 461-462: adjusted terminal temperatures
`(T_i1, T_i2, T_o1, T_o2)` of `HeatExchanger.calculate_td_log`, the four `if` statements one after
the other (base.py 455-462). -/
def hexAdjust (Ti1 Ti2 To1 To2 : ℝ) : ℝ × ℝ × ℝ × ℝ :=
  let Ti1 := if Ti1 ≤ To2 then To2 + 1 / 100 else Ti1
  let To2 := if Ti1 ≤ To2 then Ti1 - 1 / 100 else To2
  let To1 := if Ti1 ≤ To2 then Ti2 + 2 / 100 else To1
  let Ti2 := if To1 ≤ Ti2 then To1 - 2 / 100 else Ti2
  (Ti1, Ti2, To1, To2)

/-- base.py 464-472 and condenser.py 337-344: log-mean of the terminal differences. -/
def tdLogOf (ttdU ttdL : ℝ) : PyRes ℝ :=
  if ttdU = ttdL then .ok ttdL else logQuot ttdL ttdU

/-- heat_exchangers/base.py 443-472 `HeatExchanger.calculate_td_log`. -/
def hexTdLog (Ti1 Ti2 To1 To2 : ℝ) : PyRes ℝ :=
  tdLogOf ((hexAdjust Ti1 Ti2 To1 To2).1 - (hexAdjust Ti1 Ti2 To1 To2).2.2.2)
    ((hexAdjust Ti1 Ti2 To1 To2).2.2.1 - (hexAdjust Ti1 Ti2 To1 To2).2.1)

/-- The `T.is_set` flags of the four connections of a condenser (components/heat_exchangers/condenser.py 328-335). -/
structure TSet where
  i1 : Bool
  i2 : Bool
  o1 : Bool
  o2 : Bool

/-- heat_exchangers/condenser.py 328-335: adjusted temperatures of
`Condenser.calculate_td_log`; `Ti1` is the saturation temperature of the hot inlet. -/
def condAdjust (s : TSet) (Ti1 Ti2 To1 To2 : ℝ) : ℝ × ℝ × ℝ × ℝ :=
  let Ti1 := if Ti1 ≤ To2 ∧ s.i1 = false then To2 + 1 / 2 else Ti1
  let To2 := if Ti1 ≤ To2 ∧ s.o2 = false then Ti1 - 1 / 2 else To2
  let To1 := if To1 ≤ Ti2 ∧ s.o1 = false then Ti2 + 1 else To1
  let Ti2 := if To1 ≤ Ti2 ∧ s.i2 = false then To1 - 1 else Ti2
  (Ti1, Ti2, To1, To2)

/-- heat_exchangers/condenser.py 316-344 `Condenser.calculate_td_log`. -/
def condTdLog (s : TSet) (Ti1 Ti2 To1 To2 : ℝ) : PyRes ℝ :=
  tdLogOf ((condAdjust s Ti1 Ti2 To1 To2).1 - (condAdjust s Ti1 Ti2 To1 To2).2.2.2)
    ((condAdjust s Ti1 Ti2 To1 To2).2.2.1 - (condAdjust s Ti1 Ti2 To1 To2).2.1)

/-- heat_exchangers/simple.py 543-556: temperature difference used in
`SimpleHeatExchanger.kA_group_func`. -/
def simpleTd (Ti To Tamb : ℝ) : PyRes ℝ :=
  if To - Tamb = 0 then .error .zeroDivision
  else if (Ti - Tamb) / (To - Tamb) < 0 then .ok ((To - Tamb + (Ti - Tamb)) / 2)
  else if Ti - Tamb > To - Tamb then logQuot (Ti - Tamb) (To - Tamb)
  else if Ti - Tamb < To - Tamb then logQuot (To - Tamb) (Ti - Tamb)
  else .ok (To - Tamb)

/-- heat_exchangers/simple.py 895-906: temperature difference used when the results are reported
(`none` = nan is overwritten by the following `if`, as in the code). -/
def simpleTdReported (Ti To Tamb : ℝ) : PyRes ℝ :=
  if To - Tamb = 0 then .error .zeroDivision
  else if Ti - Tamb > To - Tamb then logQuot (Ti - Tamb) (To - Tamb)
  else if Ti - Tamb < To - Tamb then logQuot (To - Tamb) (Ti - Tamb)
  else .ok (Ti - Tamb)

/-! ### Two-sided heat exchangers -/

/-- State of a heat exchanger. `hotMax`/`coldMax` are `h_mix_pT(p_o1, T_i2)`/`h_mix_pT(p_o2, T_i1)`
(base.py 795-812, 860-877), `none` if CoolProp raises `ValueError`; `Tsat` is the saturation
temperature at the pressure of the hot inlet (`calc_T_sat`). -/
structure HexState where
  i1 : HStream
  i2 : HStream
  o1 : HStream
  o2 : HStream
  hotMax : Option ℝ
  coldMax : Option ℝ
  Tsat : ℝ

/-- The temperature from which the upper terminal difference is calculated: the inlet temperature
of the hot side (base.py 640-652, 1122), for condensers the saturation temperature
(condenser.py 446-450, 476). -/
def HexState.Tu (s : HexState) (cond : Bool) : ℝ := if cond then s.Tsat else s.i1.T

/-- base.py 399-401 `energy_balance_hot_func`. -/
def hexQRes (s : HexState) (Q : ℝ) : ℝ := s.i1.m * (s.o1.h - s.i1.h) - Q

/-- base.py 338-343 `energy_balance_func`. -/
def hexEnergyRes (s : HexState) : ℝ :=
  s.i1.m * (s.o1.h - s.i1.h) + s.i2.m * (s.o2.h - s.i2.h)

/-- base.py 491-495 `kA_func`. -/
def hexKARes (s : HexState) (kA : ℝ) : PyRes ℝ :=
  match hexTdLog s.i1.T s.i2.T s.o1.T s.o2.T with
  | .error e => .error e
  | .ok td => .ok (s.i1.m * (s.o1.h - s.i1.h) + kA * td)

/-- base.py 491-495 `kA_func` with condenser.py 316-344 `calculate_td_log`. -/
def condKARes (f : TSet) (s : HexState) (kA : ℝ) : PyRes ℝ :=
  match condTdLog f s.Tsat s.i2.T s.o1.T s.o2.T with
  | .error e => .error e
  | .ok td => .ok (s.i1.m * (s.o1.h - s.i1.h) + kA * td)

/-- base.py 652 `ttd_u_func`, condenser.py 446-450. -/
def hexTtdURes (cond : Bool) (s : HexState) (v : ℝ) : ℝ := v - s.Tu cond + s.o2.T
/-- base.py 707 `ttd_l_func`. -/
def hexTtdLRes (s : HexState) (v : ℝ) : ℝ := v - s.o1.T + s.i2.T
/-- base.py 760-774 `ttd_min_func`; not overridden by `Condenser`. -/
def hexTtdMinRes (s : HexState) (v : ℝ) : ℝ := v - min (s.o1.T - s.i2.T) (s.i1.T - s.o2.T)

/-- base.py 828-831 `eff_cold_func`. -/
def hexEffColdRes (s : HexState) (v : ℝ) : PyRes ℝ :=
  match s.coldMax with
  | none => .error .valueError
  | some h => .ok (v * (h - s.i2.h) - (s.o2.h - s.i2.h))
/-- base.py 893-896 `eff_hot_func`. -/
def hexEffHotRes (s : HexState) (v : ℝ) : PyRes ℝ :=
  match s.hotMax with
  | none => .error .valueError
  | some h => .ok (v * (h - s.i1.h) - (s.o1.h - s.i1.h))

/-- component.py 1030-1031 (`pr_func`): `i.p * pr - o.p`. -/
def prRes (i o : HStream) (pr : ℝ) : ℝ := i.p * pr - o.p
/-- component.py 1258-1261 `dp_func`. -/
def dpRes (i o : HStream) (dp : ℝ) : ℝ := i.p - o.p - dp

/-- component.py 1143-1156 `zeta_func`. -/
def zetaRes (i o : HStream) (zeta : ℝ) : PyRes ℝ :=
  if |i.m| < 1 / 10000 then .ok (i.p - o.p)
  else match rdiv ((i.p - o.p) * Real.pi ^ 2) (8 * |i.m| * i.m * (i.vol + o.vol) / 2) with
    | .error e => .error e
    | .ok q => .ok (zeta - q)

/-- component.py 1092-1099 `calc_zeta`. -/
def calcZeta (i o : HStream) : PyRes ℝ :=
  if |i.m| ≤ 1 / 10000 then .ok 0
  else rdiv ((i.p - o.p) * Real.pi ^ 2) (4 * i.m ^ 2 * (i.vol + o.vol))

/-- base.py 1141-1149: the reported logarithmic temperature difference (`none` = nan). -/
def hexTdLogReported (ttdU ttdL : ℝ) : PyRes (Option ℝ) :=
  if ttdU < 0 ∨ ttdL < 0 then .ok none
  else if ttdL = ttdU then .ok (some ttdL)
  else match logQuot ttdL ttdU with
    | .error e => .error e
    | .ok td => .ok (some td)

/-- base.py 1150: the reported kA (`none` = nan). -/
def hexKAReported (Q ttdU ttdL : ℝ) : PyRes (Option ℝ) :=
  match hexTdLogReported ttdU ttdL with
  | .error e => .error e
  | .ok none => .ok none
  | .ok (some td) => match rdiv (-Q) td with
    | .error e => .error e
    | .ok v => .ok (some v)

/-- base.py 1153-1178: reported effectiveness; a `ValueError` of the property function gives nan. -/
def effReported (dh hin : ℝ) (hmax : Option ℝ) : PyRes (Option ℝ) :=
  match hmax with
  | none => .ok none
  | some h => match rdiv dh (h - hin) with
    | .error e => .error e
    | .ok v => .ok (some v)

/-- The results of `HeatExchanger.calc_parameters`; the pressure drops are the SI values
(components/heat_exchangers/base.py 1117-1178). -/
structure HexResults where
  Q : ℝ
  ttdU : ℝ
  ttdL : ℝ
  ttdMin : ℝ
  pr1 : ℝ
  pr2 : ℝ
  zeta1 : ℝ
  zeta2 : ℝ
  dp1 : ℝ
  dp2 : ℝ
  tdLog : Option ℝ
  kA : Option ℝ
  effHot : Option ℝ
  effCold : Option ℝ

/-- heat_exchangers/base.py 1117-1178 `HeatExchanger.calc_parameters` and condenser.py 471-534
`Condenser.calc_parameters` (`eff_max` and the
conversion of the pressure drops to the unit of the network are not part of it; if several
expressions raise, the model may report another one of them than Python). -/
def hexCalc (cond : Bool) (s : HexState) : PyRes HexResults :=
  match rdiv s.o1.p s.i1.p, calcZeta s.i1 s.o1, rdiv s.o2.p s.i2.p, calcZeta s.i2 s.o2,
      hexTdLogReported (s.Tu cond - s.o2.T) (s.o1.T - s.i2.T),
      hexKAReported (s.i1.m * (s.o1.h - s.i1.h)) (s.Tu cond - s.o2.T) (s.o1.T - s.i2.T),
      effReported (s.o1.h - s.i1.h) s.i1.h s.hotMax,
      effReported (s.o2.h - s.i2.h) s.i2.h s.coldMax with
  | .ok pr1, .ok z1, .ok pr2, .ok z2, .ok td, .ok kA, .ok eh, .ok ec =>
    .ok { Q := s.i1.m * (s.o1.h - s.i1.h), ttdU := s.Tu cond - s.o2.T, ttdL := s.o1.T - s.i2.T,
          ttdMin := min (s.Tu cond - s.o2.T) (s.o1.T - s.i2.T), pr1 := pr1, pr2 := pr2,
          zeta1 := z1, zeta2 := z2, dp1 := s.i1.p - s.o1.p, dp2 := s.i2.p - s.o2.p,
          tdLog := td, kA := kA, effHot := eh, effCold := ec }
  | .error e, _, _, _, _, _, _, _ => .error e
  | _, .error e, _, _, _, _, _, _ => .error e
  | _, _, .error e, _, _, _, _, _ => .error e
  | _, _, _, .error e, _, _, _, _ => .error e
  | _, _, _, _, .error e, _, _, _ => .error e
  | _, _, _, _, _, .error e, _, _ => .error e
  | _, _, _, _, _, _, .error e, _ => .error e
  | _, _, _, _, _, _, _, .error e => .error e

/-! ### Simple heat exchangers -/

/-- simple.py 558 `kA_group_func`. -/
def simpleKARes (i o : HStream) (Tamb kA : ℝ) : PyRes ℝ :=
  match simpleTd i.T o.T Tamb with
  | .error e => .error e
  | .ok td => .ok (i.m * (o.h - i.h) + kA * td)

/-- simple.py 894-908: kA reported if the ambient temperature is given. -/
def simpleKAReported (i o : HStream) (Tamb : ℝ) : PyRes ℝ :=
  match simpleTdReported i.T o.T Tamb with
  | .error e => .error e
  | .ok td => match rdiv (i.m * (o.h - i.h)) td with
    | .error e => .error e
    | .ok v => .ok |v|

/-- simple.py 340-358 `darcy_func`; `friction` is the Darcy friction factor of the current
Reynolds number. -/
def darcyRes (i o : HStream) (L D friction : ℝ) : PyRes ℝ :=
  if |i.m| < 1 / 10000 then .ok (i.p - o.p)
  else match rdiv (8 * |i.m| * i.m * (i.vol + o.vol) / 2 * L * friction) (Real.pi ^ 2 * D ^ 5) with
    | .error e => .error e
    | .ok q => .ok (i.p - o.p - q)

/-- Python's `math.copysign(a, b)` (no signed zeros) (components/heat_exchangers/simple.py 453-459). -/
def copysign (a b : ℝ) : ℝ := if 0 ≤ b then |a| else -|a|

/-- simple.py 453-459: pressure loss after Hazen-Williams (`L`, `ks_HW` and `D` positive). -/
def hazenLoss (m vi vo L ks D : ℝ) : ℝ :=
  (1067 / 100 * |m| ^ (1.852 : ℝ) * L / (ks ^ (1.852 : ℝ) * D ^ (4.871 : ℝ)))
    * (981 / 100 * ((vi + vo) / 2) ^ (0.852 : ℝ))

/-- simple.py 444-459 `hazen_williams_func`. -/
def hazenRes (i o : HStream) (L ks D : ℝ) : ℝ :=
  if |i.m| < 1 / 10000 then i.p - o.p
  else copysign (i.p - o.p) i.m - hazenLoss i.m i.vol o.vol L ks D

/-! ### Turbomachines -/

/-- turbomachinery/base.py 118-119 `energy_balance_func`. -/
def turboPRes (i o : HStream) (P : ℝ) : ℝ := i.m * (o.h - i.h) - P
/-- turbomachinery/base.py 239-240: reported power. -/
def turboPReported (i o : HStream) : ℝ := i.m * (o.h - i.h)
/-- turbomachinery/base.py 241, valve.py 320, simple.py 891: reported pressure ratio. -/
def prReported (i o : HStream) : PyRes ℝ := rdiv o.p i.p

/-- pump.py 205-218, compressor.py 206-219 `eta_s_func`; `his` is the enthalpy after isentropic
change of state. -/
def pumpEtaRes (i o : HStream) (his eta : ℝ) : ℝ := (o.h - i.h) * eta - (his - i.h)
/-- pump.py 506-517, compressor.py 654-665: reported isentropic efficiency. -/
def pumpEtaReported (i o : HStream) (his : ℝ) : PyRes ℝ := rdiv (his - i.h) (o.h - i.h)
/-- turbine.py 193-208 `eta_s_func`. -/
def turbineEtaRes (i o : HStream) (his eta : ℝ) : ℝ := -(o.h - i.h) + (his - i.h) * eta
/-- turbine.py 253-267 `calc_eta_s`. -/
def turbineEtaReported (i o : HStream) (his : ℝ) : PyRes ℝ := rdiv (o.h - i.h) (his - i.h)

/-- Parameters a characteristic line can be linked to (components/component.py 450-499). -/
inductive CharParam | m | mOut | v | pr | other
  deriving DecidableEq

/-- Design data of a connection read from the design case: `m.design`, `p.design`, `v.design`,
`vol.design`, `T.design` (components/component.py 450-499). -/
structure HDesign where
  m : ℝ
  p : ℝ
  v : ℝ
  vol : ℝ
  T : ℝ

/-- component.py 450-499 `get_char_expr` for `type='rel'`. -/
def charExprRel (p : CharParam) (i o : HStream) (di d_o : HDesign) : PyRes ℝ :=
  match p with
  | .m => rdiv i.m di.m
  | .mOut => rdiv o.m d_o.m
  | .v => rdiv (i.m * i.vol) di.v
  | .pr => rdiv (o.p * di.p) (i.p * d_o.p)
  | .other => .error .valueError

/-- turbine.py 362-387, pump.py 277-300, compressor.py 278-301: evaluation of the characteristic
at the load; a load expression of zero counts as "no valid parameter" (`if not expr`). -/
def charFactor (f : ℝ → PyRes ℝ) (expr : PyRes ℝ) : PyRes ℝ :=
  match expr with
  | .error e => .error e
  | .ok x => if x = 0 then .error .valueError else f x

/-- pump.py 277-300, compressor.py 278-301 `eta_s_char_func`. -/
def pumpEtaCharRes (f : ℝ → PyRes ℝ) (p : CharParam) (i o : HStream) (di d_o : HDesign)
    (his etaDesign : ℝ) : PyRes ℝ :=
  match charFactor f (charExprRel p i o di d_o) with
  | .error e => .error e
  | .ok c => .ok ((o.h - i.h) * etaDesign * c - (his - i.h))

/-- turbine.py 362-387 `eta_s_char_func`. -/
def turbineEtaCharRes (f : ℝ → PyRes ℝ) (p : CharParam) (i o : HStream) (di d_o : HDesign)
    (his etaDesign : ℝ) : PyRes ℝ :=
  match charFactor f (charExprRel p i o di d_o) with
  | .error e => .error e
  | .ok c => .ok (-(o.h - i.h) + etaDesign * c * (his - i.h))

/-- turbine.py 286-297 `cone_func` (`n = 1`); the square root of a negative number would be
complex in Python, here an error. -/
def coneRes (i o : HStream) (di : HDesign) (prDesign : ℝ) : PyRes ℝ :=
  if di.p = 0 ∨ i.p * i.vol = 0 ∨ i.p = 0 ∨ 1 - prDesign ^ 2 = 0 then .error .zeroDivision
  else if di.p * di.vol / (i.p * i.vol) < 0 then .error .typeError
  else .ok (-i.m + di.m * i.p / di.p * Real.sqrt (di.p * di.vol / (i.p * i.vol))
    * Real.sqrt |(1 - (o.p / i.p) ^ 2) / (1 - prDesign ^ 2)|)

/-- base.py 567-582 `kA_char_func`. -/
def hexKACharRes (f1 f2 : ℝ → PyRes ℝ) (x1 x2 : PyRes ℝ) (s : HexState) (kADesign : ℝ) :
    PyRes ℝ :=
  match x1, x2 with
  | .error e, _ => .error e
  | _, .error e => .error e
  | .ok x1, .ok x2 => match f1 x1, f2 x2 with
    | .error e, _ => .error e
    | _, .error e => .error e
    | .ok c1, .ok c2 =>
      if c1 = 0 ∨ c2 = 0 ∨ 1 / c1 + 1 / c2 = 0 then .error .zeroDivision
      else match hexTdLog s.i1.T s.i2.T s.o1.T s.o2.T with
        | .error e => .error e
        | .ok td => .ok (s.i1.m * (s.o1.h - s.i1.h)
            + kADesign * (2 / (1 / c1 + 1 / c2)) * td)

end

end Tespy
