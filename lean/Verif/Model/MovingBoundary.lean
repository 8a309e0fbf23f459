import Verif.Model.HeatTransfer
import Mathlib.Data.List.Sort

/-!
The moving boundary heat exchanger (components/heat_exchangers/movingboundary.py).

Simplifications: real numbers; the saturation enthalpies at the inlet pressure are data of the
side (`none` if the fluid is a mixture or CoolProp raises, movingboundary.py 327-332); the
temperature `T_mix_ph` is a function parameter. The check of equal fluid data (306-308) is left
out: both connections of a side belong to the same fluid branch.
-/
namespace Tespy

noncomputable section

/-- One side of the heat exchanger: inlet and outlet enthalpy, mass flow, inlet and outlet pressure,
saturation enthalpies (liquid, gas) at the pressure of the connection with the lower enthalpy
(components/heat_exchangers/movingboundary.py 289-344). -/
structure MBSide where
  hin : ℝ
  hout : ℝ
  m : ℝ
  pin : ℝ
  pout : ℝ
  sat : Option (ℝ × ℝ)

/-- tools/global_vars.py 12: `ERR = 1e-6`. -/
def mbERR : ℝ := 1 / 1000000

/-- movingboundary.py 321-344: the enthalpy steps between the lower enthalpy `h1` and the higher
enthalpy `h2`. -/
def mbStepsSorted (h1 h2 : ℝ) (sat : Option (ℝ × ℝ)) : List ℝ :=
  match sat with
  | none => [h1, h2]
  | some (hl, hg) =>
    if h1 < hl then
      if h2 > hg + mbERR then [h1, hl, hg, h2]
      else if h2 > hl + mbERR then [h1, hl, h2]
      else [h1, h2]
    else if h1 < hg - mbERR then
      if h2 > hg + mbERR then [h1, hg, h2] else [h1, h2]
    else [h1, h2]

/-- movingboundary.py 289-344 `_get_h_steps`: connections are swapped if the first one has the
higher enthalpy. -/
def mbSteps (s : MBSide) : List ℝ :=
  if s.hin > s.hout then mbStepsSorted s.hout s.hin s.sat else mbStepsSorted s.hin s.hout s.sat

/-- movingboundary.py 347-366 `_get_Q_sections`. -/
def mbQSections (m : ℝ) : List ℝ → List ℝ
  | a :: b :: l => (b - a) * m :: mbQSections m (b :: l)
  | _ => []

/-- `np.cumsum(l).tolist()`, started from `acc` (components/heat_exchangers/movingboundary.py 368-385). -/
def cumsumFrom (acc : ℝ) : List ℝ → List ℝ
  | [] => []
  | a :: l => (acc + a) :: cumsumFrom (acc + a) l

/-- movingboundary.py 377-379: borders of the hot side. -/
def mbHot (s : MBSide) : List ℝ := 0 :: (cumsumFrom 0 (mbQSections s.m (mbSteps s))).dropLast
/-- movingboundary.py 381-383: borders of the cold side. -/
def mbCold (s : MBSide) : List ℝ := cumsumFrom 0 (mbQSections s.m (mbSteps s))

/-- movingboundary.py 368-385 `_assign_sections`. -/
def mbSections (hot cold : MBSide) : List ℝ :=
  (mbCold cold ++ mbHot hot).insertionSort (· ≤ ·)

/-- movingboundary.py 404, 406-409: temperatures of the hot side at the section borders; the
inlet pressure is used for all of them. -/
def mbTHot (T : ℝ → ℝ → ℝ) (hot : MBSide) (Q : List ℝ) : List ℝ :=
  Q.map (fun q => T hot.pin (hot.hout + q / hot.m))
/-- movingboundary.py 405, 410-413: temperatures of the cold side at the section borders. -/
def mbTCold (T : ℝ → ℝ → ℝ) (cold : MBSide) (Q : List ℝ) : List ℝ :=
  Q.map (fun q => T cold.pin (cold.hin + q / cold.m))

/-- movingboundary.py 437-440, 516-519: temperature differences at the borders. -/
def mbTd (th tc : List ℝ) : List ℝ := List.zipWith (fun a b => a - b) th tc

/-- Python's `min` of a list (`ValueError` for an empty list)
(Python function, components/heat_exchangers/movingboundary.py 505-520). -/
def pyMin : List ℝ → PyRes ℝ
  | [] => .error .valueError
  | a :: l => .ok (l.foldl min a)

/-- movingboundary.py 505-520 `calc_td_pinch`. -/
def mbPinch (Th Tc : ℝ → ℝ → ℝ) (hot cold : MBSide) : PyRes ℝ :=
  pyMin (mbTd (mbTHot Th hot (mbSections hot cold)) (mbTCold Tc cold (mbSections hot cold)))

/-- movingboundary.py 443-451: temperature difference of one section with the (absolute)
differences `a` at its lower and `b` at its upper border; `rnd` is `round(_, 6)`. -/
def mbSectionTd (rnd : ℝ → ℝ) (a b : ℝ) : PyRes ℝ :=
  if rnd b ≠ rnd a then logQuot b a else .ok b

/-- movingboundary.py 436-456 `_calc_UA_in_sections` and the sum in `calc_UA` (470): `tds` are the
absolute temperature differences at the borders, `qs` the borders. Division by zero is an error
(in Python `Q` is a numpy number and the result is infinite or nan). -/
def mbUA (rnd : ℝ → ℝ) : List ℝ → List ℝ → PyRes ℝ
  | a :: b :: tds, q1 :: q2 :: qs =>
    match mbSectionTd rnd a b with
    | .error e => .error e
    | .ok td => match rdiv |q2 - q1| td with
      | .error e => .error e
      | .ok ua => match mbUA rnd (b :: tds) (q2 :: qs) with
        | .error e => .error e
        | .ok rest => .ok (ua + rest)
  | _, _ => .ok 0

/-- movingboundary.py 458-470 `calc_UA`. -/
def mbCalcUA (rnd : ℝ → ℝ) (Th Tc : ℝ → ℝ → ℝ) (hot cold : MBSide) : PyRes ℝ :=
  mbUA rnd ((mbTd (mbTHot Th hot (mbSections hot cold))
    (mbTCold Tc cold (mbSections hot cold))).map abs) (mbSections hot cold)

/-- movingboundary.py 472-482 `UA_func`: residual for the specified value `v`. -/
def mbUARes (rnd : ℝ → ℝ) (Th Tc : ℝ → ℝ → ℝ) (hot cold : MBSide) (v : ℝ) : PyRes ℝ :=
  match mbCalcUA rnd Th Tc hot cold with
  | .error e => .error e
  | .ok ua => .ok (v - ua)

/-- movingboundary.py 522-541 `td_pinch_func`: residual for the specified value `v`. -/
def mbPinchRes (Th Tc : ℝ → ℝ → ℝ) (hot cold : MBSide) (v : ℝ) : PyRes ℝ :=
  match mbPinch Th Tc hot cold with
  | .error e => .error e
  | .ok td => .ok (v - td)

end

end Tespy
