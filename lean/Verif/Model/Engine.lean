import Verif.Model.Combustion
import Verif.Model.Eqs
/-!
The combustion engine (components/combustion/engine.py).

An engine has two cooling loops (`in1`/`out1`, `in2`/`out2`) and a combustion chamber with the inlets
`in3`, `in4` and the flue gas outlet `out3`. Power, heat loss and the heat given to the loops are
negative numbers.

Simplifications: numbers form a field (no rounding); `x / 0 = 0` where numpy gives inf or nan (the
theorems assume that the characteristic `tiP_char` is not zero at the load). The four characteristic
lines are functions of the load; `CharLine.evaluate` of Model/Characteristics.lean is such a function.
-/
namespace Tespy

/-- A cooling loop: mass flow, pressures and enthalpies at inlet and outlet (`self.inl[i]`,
`self.outl[i]`, i = 0, 1) (components/combustion/engine.py 351-365). -/
structure CoolLoop (K : Type) where
  m : K
  pIn : K
  pOut : K
  hIn : K
  hOut : K

/-- The characteristic lines `tiP_char`, `Q1_char`, `Q2_char`, `Qloss_char` (engine.py 281-282). -/
structure EngineChars (K : Type) where
  tiP : K → K
  q1 : K → K
  q2 : K → K
  qloss : K → K

/-- Values of an engine: the combustion inlets, the flue gas, the loops, the parameters `P` and
`Qloss` (engine.py 260, 267) and the design value of `P` (`none`: nan). -/
structure EngineVals (F K : Type) where
  inl : List (CombStream F K)
  out : CombStream F K
  loop1 : CoolLoop K
  loop2 : CoolLoop K
  P : K
  Qloss : K
  Pdesign : Option K

section
variable {F K : Type} [DecidableEq F] [Field K]

/-- Heat absorbed by a loop: `i.m.val_SI * (o.h.val_SI - i.h.val_SI)` (components/combustion/engine.py 412-415). -/
def CoolLoop.heat (l : CoolLoop K) : K := l.m * (l.hOut - l.hIn)

/-- engine.py 632-636, 708-712, 804-808, 900-904, 974-978, 997-1001: argument of the characteristic
lines. -/
def EngineVals.load (e : EngineVals F K) : K :=
  match e.Pdesign with
  | none => 1
  | some d => e.P / d

/-- base.py 1105-1117 `calc_ti` of the combustion connections (engine.py 370-371). -/
def EngineVals.ti (d : CombData F K) (e : EngineVals F K) : K := combTi d e.inl e.out

/-- engine.py 406-417 `energy_balance_func` -/
def engineEnergyRes (d : CombData F K) (e : EngineVals F K) : K :=
  combEnergyRes d e.inl e.out 1 - e.loop1.heat - e.loop2.heat + (e.P + e.Qloss)

/-- engine.py 638-641 `tiP_char_func` -/
def enginePowerRes (d : CombData F K) (c : EngineChars K) (e : EngineVals F K) : K :=
  e.ti d + c.tiP e.load * e.P

/-- engine.py 714-724 `Q1_char_func` -/
def engineHeat1Res (d : CombData F K) (c : EngineChars K) (e : EngineVals F K) : K :=
  e.ti d * c.q1 e.load - c.tiP e.load * e.loop1.m * (e.loop1.hOut - e.loop1.hIn)

/-- engine.py 810-821 `Q2_char_func` -/
def engineHeat2Res (d : CombData F K) (c : EngineChars K) (e : EngineVals F K) : K :=
  e.ti d * c.q2 e.load - c.tiP e.load * e.loop2.m * (e.loop2.hOut - e.loop2.hIn)

/-- engine.py 906-912 `Qloss_char_func` -/
def engineLossRes (d : CombData F K) (c : EngineChars K) (e : EngineVals F K) : K :=
  e.ti d * c.qloss e.load + c.tiP e.load * e.Qloss

/-- engine.py 501-517, 559-575 `Q1_func`, `Q2_func`: specified heat of a loop. -/
def engineHeatSpecRes (l : CoolLoop K) (Q : K) : K := l.m * (l.hOut - l.hIn) + Q

/-- engine.py 963-983 `calc_P` -/
def engineCalcP (d : CombData F K) (c : EngineChars K) (e : EngineVals F K) : K :=
  -e.ti d / c.tiP e.load

/-- engine.py 985-1006 `calc_Qloss` -/
def engineCalcQloss (d : CombData F K) (c : EngineChars K) (e : EngineVals F K) : K :=
  -e.ti d * c.qloss e.load / c.tiP e.load

/-- engine.py 1008-1086 `bus_func` -/
def engineBus (d : CombData F K) (c : EngineChars K) (e : EngineVals F K) (param : String) :
    PyRes K :=
  if param = "TI" then .ok (e.ti d)
  else if param = "P" then .ok (engineCalcP d c e)
  else if param = "Q" then .ok (0 - e.loop1.m * (e.loop1.hOut - e.loop1.hIn)
    - e.loop2.m * (e.loop2.hOut - e.loop2.hIn))
  else if param = "Q1" then .ok (-e.loop1.m * (e.loop1.hOut - e.loop1.hIn))
  else if param = "Q2" then .ok (-e.loop2.m * (e.loop2.hOut - e.loop2.hIn))
  else if param = "Qloss" then .ok (engineCalcQloss d c e)
  else .error .valueError

/-- Values set by `calc_parameters` (components/combustion/engine.py 1298-1313). -/
structure EngineReport (K : Type) where
  Q1 : K
  Q2 : K
  pr1 : K
  pr2 : K
  P : K
  Qloss : K
  ti : K

/-- engine.py 1298-1313 `calc_parameters`: `Qloss` is calculated after `P` has been overwritten.
Not modelled: zeta, `lamb` (Model/Combustion.lean `calcLambda`). -/
def engineReport (d : CombData F K) (c : EngineChars K) (e : EngineVals F K) : EngineReport K :=
  let e' := { e with P := engineCalcP d c e }
  { Q1 := -e.loop1.m * (e.loop1.hOut - e.loop1.hIn)
    Q2 := -e.loop2.m * (e.loop2.hOut - e.loop2.hIn)
    pr1 := e.loop1.pOut / e.loop1.pIn
    pr2 := e.loop2.pOut / e.loop2.pIn
    P := e'.P
    Qloss := engineCalcQloss d c e'
    ti := e'.ti d }

/-! ### entropy balance -/

/-- Entropies of a loop: at inlet and outlet, and at the mean pressure `p_in · sqrt(pr)` with the
enthalpies of inlet and outlet (engine.py 1418-1429; `s_mix_ph` is not modelled). -/
structure LoopEntropy (K : Type) where
  sIn : K
  sOut : K
  sInStar : K
  sOutStar : K

/-- Results of `entropy_balance` (components/combustion/engine.py 1328-1483). -/
structure EngineEntropy (K : Type) where
  S_Q12 : K
  S_Q22 : K
  S_irr1 : K
  S_irr2 : K
  S_Q11 : K
  S_Q21 : K
  S_Qloss : K
  S_irr_i : K
  S_Q1irr : K
  S_Q2irr : K
  S_comb : K
  S_irr : K

/-- engine.py 1409-1411: the virtual inner temperature, the flue gas temperature if not specified. -/
def engineTv (spec : Option K) (Tflue : K) : K :=
  match spec with
  | some t => t
  | none => Tflue

/-- engine.py 1328-1483 `entropy_balance`. `SQcomb` is the entropy difference of the combustion gases to
the reference state (lines 1396-1405, `s_mix_pT` is not modelled). Not modelled: the mean
temperatures `T_mQ1`, `T_mQ2`, `T_mcomb`. -/
def engineEntropy (r : EngineReport K) (m1 m2 : K) (l1 l2 : LoopEntropy K) (SQcomb : K)
    (Tspec : Option K) (Tflue eta : K) : EngineEntropy K :=
  let T := engineTv Tspec Tflue
  let SQ12 := m1 * (l1.sOutStar - l1.sInStar)
  let SQ22 := m2 * (l2.sOutStar - l2.sInStar)
  let Sirr1 := m1 * (l1.sOut - l1.sIn) - SQ12
  let Sirr2 := m2 * (l2.sOut - l2.sIn) - SQ22
  let Pirr := (1 / eta - 1) * r.P
  let SQ11 := r.Q1 / T
  let SQ21 := r.Q2 / T
  let SQloss := r.Qloss / T
  let Sirri := Pirr / T
  { S_Q12 := SQ12, S_Q22 := SQ22, S_irr1 := Sirr1, S_irr2 := Sirr2, S_Q11 := SQ11, S_Q21 := SQ21,
    S_Qloss := SQloss, S_irr_i := Sirri, S_Q1irr := SQ12 - SQ11, S_Q2irr := SQ22 - SQ21,
    S_comb := SQcomb - SQ11 - SQ21 - SQloss - Sirri,
    S_irr := Sirri + Sirr2 + Sirr1 + (SQ12 - SQ11) + (SQ22 - SQ21) }

/-- Python values in `exergy_balance`: numbers and connection objects (components/combustion/engine.py 1485-1499). -/
inductive ExVal (K : Type)
  | num (x : K)
  | conn

/-- Python's binary `-`: `Connection` does not define it (Python operator, components/combustion/engine.py 1485-1499). -/
def ExVal.sub : ExVal K → ExVal K → PyRes (ExVal K)
  | .num a, .num b => .ok (.num (a - b))
  | _, _ => .error .typeError

/-- Python's binary `+` (Python operator, components/combustion/engine.py 1485-1499). -/
def ExVal.add : ExVal K → ExVal K → PyRes (ExVal K)
  | .num a, .num b => .ok (.num (a + b))
  | _, _ => .error .typeError

/-- engine.py 1485-1490, first statement of `exergy_balance`, in Python's order of evaluation:
`Ex_physical` of `out3`, `in4`, `in3`, the power, then `self.outl[1] - self.inl[1]`. -/
def engineExergyProduct (exOut exIn4 exIn3 P : K) (out1 in1 out0 in0 : ExVal K) : PyRes (ExVal K) :=
  match ExVal.add (.num exIn4) (.num exIn3) with
  | .error e => .error e
  | .ok a => match ExVal.sub (.num exOut) a with
    | .error e => .error e
    | .ok b => match ExVal.sub b (.num P) with
      | .error e => .error e
      | .ok b' => match ExVal.sub out1 in1 with
        | .error e => .error e
        | .ok c => match ExVal.add b' c with
          | .error e => .error e
          | .ok b'' => match ExVal.sub out0 in0 with
            | .error e => .error e
            | .ok c' => ExVal.add b'' c'

/-- engine.py 1485-1499 `exergy_balance` of the engine: the last terms are the connection objects
themselves. -/
def engineExergy (exOut exIn4 exIn3 P : K) : PyRes (ExVal K) :=
  engineExergyProduct exOut exIn4 exIn3 P .conn .conn .conn .conn

end

/-! ### derivatives of the energy balance -/

section
variable {K : Type} [Field K]

/-- `in1 in2 in3 in4`, `out1 out2 out3` (components/combustion/engine.py 351-365). -/
structure EnginePorts where
  i0 : Port
  i1 : Port
  i2 : Port
  i3 : Port
  o0 : Port
  o1 : Port
  o2 : Port

/-- The stream of a connection; `hr` gives the enthalpy of a composition at reference conditions
(base.py 840-852). -/
def streamOf (hr : (String → K) → K) (s : EqState K) (c : Port) : CombStream String K :=
  ⟨s.mv c, s.xv c, s.hv c, hr (s.xv c)⟩

/-- The loop of two connections (components/combustion/engine.py 501-517). -/
def loopOf (s : EqState K) (i o : Port) : CoolLoop K := ⟨s.mv i, s.pv i, s.pv o, s.hv i, s.hv o⟩

/-- The values of an engine in the equation system; `P` and `Qloss` are variables of the system if
not specified (engine.py 351-365). -/
def engineOf (hr : (String → K) → K) (s : EqState K) (q : EnginePorts) (Pdesign : Option K) :
    EngineVals String K where
  inl := [streamOf hr s q.i2, streamOf hr s q.i3]
  out := streamOf hr s q.o2
  loop1 := loopOf s q.i0 q.o0
  loop2 := loopOf s q.i1 q.o1
  P := s.val (.par "P")
  Qloss := s.val (.par "Qloss")
  Pdesign := Pdesign

/-- `numeric_deriv` (tools/helpers.py, components/component.py): central difference of a function of the state in a
variable, with increment `δ` (exact arithmetic). -/
def centralDiff (f : EqState K → K) (s : EqState K) (v : Var) (δ : K) : K :=
  (f { s with val := Function.update s.val v (s.val v + δ) }
    - f { s with val := Function.update s.val v (s.val v - δ) }) / (2 * δ)

/-- engine.py 450-499 `energy_balance_deriv`, statement by statement. `δm`, `δp`: increments of the
numeric derivatives (not zero). `increment_filter` is not modelled (no variable is filtered). The order of the
fuels (a Python set) is that of `Finset.toList`. -/
noncomputable def engineEnergyD (d : CombData String K) (hr : (String → K) → K) (δm δp : K)
    (s : EqState K) (q : EnginePorts) (k : ℕ) : Writes K :=
  let f := fun s => engineEnergyRes d (engineOf hr s q none)
  (wr s k (.m q.i0.m) (-(s.hv q.o0 - s.hv q.i0)) ++ wr s k (.m q.i1.m) (-(s.hv q.o1 - s.hv q.i1)))
  ++ [q.i2, q.i3, q.o2].flatMap (fun c =>
    wr s k (.m c.m) (centralDiff f s (.m c.m) δm) ++ wr s k (.p c.p) (centralDiff f s (.p c.p) δp))
  ++ [q.i0, q.i1, q.i2, q.i3].flatMap (fun i => wr s k (.h i.h) (s.mv i))
  ++ [q.o0, q.o1, q.o2].flatMap (fun o => wr s k (.h o.h) (-(s.mv o)))
  ++ [q.i2, q.i3].flatMap (fun c =>
    d.fuels.toList.flatMap (fun fl => wr s k (.x c.fl fl) (s.mv c * d.LHV fl)))
  ++ d.fuels.toList.flatMap (fun fl => wr s k (.x q.o2.fl fl) (-(s.mv q.o2) * d.LHV fl))
  ++ (wr s k (.par "P") 1 ++ wr s k (.par "Qloss") 1)

end
end Tespy
