import Verif.Model.Mixture
import Mathlib.Algebra.Order.AbsoluteValue.Basic

/-
Exergy and entropy balances of components and the exergy analysis of a network.

Simplifications: numbers are elements of a linearly ordered field; NaN is `none`; tables are lists
of rows in the order of insertion; the categories of the fluids and the sankey tables are not
modelled; components and busses are given by their results.
-/
namespace Tespy
section
variable {K : Type} [Field K] [LinearOrder K]

/-! ## NaN arithmetic -/

/-- Addition of floats with NaN, e.g. tools/analyses.py 409-434. -/
def nadd : Option K → Option K → Option K
  | some a, some b => some (a + b)
  | _, _ => none

/-- Subtraction of floats with NaN, e.g. components/turbomachinery/pump.py 575. -/
def nsub : Option K → Option K → Option K
  | some a, some b => some (a - b)
  | _, _ => none

/-- Division of floats with NaN, e.g. components/component.py 870-874. -/
def ndiv : Option K → Option K → Option K
  | some a, some b => some (a / b)
  | _, _ => none

/-! ## Connections -/

/-- What the balances read of a connection: temperature, mass flow, enthalpy, entropy and the
specific exergies set by `get_physical_exergy`, `get_chemical_exergy` (connection.py 1076-1136). -/
structure ExStream (K : Type) where
  T : K
  m : K
  h : K
  s : K
  exT : K
  exM : K
  exC : K

/-- `Ex_therm` (connection.py 1101) -/
def ExStream.ExT (c : ExStream K) : K := c.exT * c.m

/-- `Ex_mech` (connection.py 1102) -/
def ExStream.ExM (c : ExStream K) : K := c.exM * c.m

/-- `ex_physical` (connection.py 1104) -/
def ExStream.exPh (c : ExStream K) : K := c.exT + c.exM

/-- `Ex_physical` (connection.py 1105) -/
def ExStream.ExPh (c : ExStream K) : K := c.m * c.exPh

/-- `Ex_chemical` (connection.py 1136) -/
def ExStream.ExC (c : ExStream K) : K := c.m * c.exC

/-- `get_physical_exergy` (connection.py 1076-1105): property functions of the fluid of the
connection, its state, and ambient state. -/
def getPhysicalExergy (hPT sPT : K → K → PyRes K) (p pamb Tamb : K) (c : ExStream K) :
    PyRes (ExStream K) :=
  match physExergy hPT sPT c.h c.s p pamb Tamb with
  | .error e => .error e
  | .ok r => .ok { c with exT := r.1, exM := r.2 }

/-! ## Components -/

/-- The dictionary `E_bus` (e.g. components/turbomachinery/pump.py 554-576). -/
structure EBus (K : Type) where
  chemical : Option K
  physical : Option K
  massless : Option K
  deriving DecidableEq

/-- What `exergy_balance` stores; `bus = none` means that `E_bus` is not a dictionary (components/component.py 854-868). -/
structure ExRes (K : Type) where
  EF : Option K
  EP : Option K
  ED : Option K
  eps : Option K
  bus : Option (EBus K)
  deriving DecidableEq

/-- `_calc_epsilon` (component.py 870-874) -/
def calcEpsilon (EF EP : Option K) : Option K := if EF = some 0 then none else ndiv EP EF

/-- E_D = E_F - E_P (e.g. pump.py 575-576) -/
def exClose (EF EP : Option K) (bus : Option (EBus K)) : ExRes K :=
  ⟨EF, EP, nsub EF EP, calcEpsilon EF EP, bus⟩

/-- E_D = E_F if E_P is NaN, else E_F - E_P (e.g. valve.py 393-397) -/
def exCloseNan (EF EP : Option K) (bus : Option (EBus K)) : ExRes K :=
  match EP with
  | none => ⟨EF, none, EF, calcEpsilon EF none, bus⟩
  | some _ => exClose EF EP bus

/-- The dictionary `E_bus` of NaN, components/component.py 854-868. -/
def nanBus : EBus K := ⟨none, none, none⟩

/-- `Component.exergy_balance` (component.py 854-868) -/
def defaultExergy : ExRes K := ⟨none, none, none, none, some nanBus⟩

/-- `Source.exergy_balance` (source.py 99-126) -/
def sourceExergy (o : ExStream K) : ExRes K :=
  ⟨none, none, none, none, some ⟨some o.ExC, some o.ExPh, some 0⟩⟩

/-- `Sink.exergy_balance` (sink.py 81-108) -/
def sinkExergy (i : ExStream K) : ExRes K :=
  ⟨none, none, none, none, some ⟨some i.ExC, some i.ExPh, some 0⟩⟩

/-- `Pump.exergy_balance` and `Compressor.exergy_balance` (pump.py 554-576, compressor.py
715-737); `P` is the reported power. -/
def pumpExergy (T0 P : K) (i o : ExStream K) : ExRes K :=
  if T0 ≤ i.T ∧ T0 ≤ o.T then
    exClose (some P) (some (o.ExPh - i.ExPh)) (some ⟨some 0, some 0, some P⟩)
  else if i.T ≤ T0 ∧ T0 < o.T then
    exClose (some (P + i.ExT)) (some (o.ExT + (o.ExM - i.ExM))) (some ⟨some 0, some 0, some P⟩)
  else if i.T ≤ T0 ∧ o.T ≤ T0 then
    exClose (some (P + (i.ExT - o.ExT))) (some (o.ExM - i.ExM)) (some ⟨some 0, some 0, some P⟩)
  else exClose none none (some ⟨some 0, some 0, some P⟩)

/-- `Turbine.exergy_balance` (turbine.py 566-586) -/
def turbineExergy (T0 P : K) (i o : ExStream K) : ExRes K :=
  if T0 ≤ i.T ∧ T0 ≤ o.T then
    exClose (some (i.ExPh - o.ExPh)) (some (-P)) (some ⟨some 0, some 0, some (-P)⟩)
  else if T0 < i.T ∧ o.T ≤ T0 then
    exClose (some (i.ExT + (i.ExM - o.ExM))) (some (-P + o.ExT)) (some ⟨some 0, some 0, some (-P)⟩)
  else if i.T ≤ T0 ∧ o.T ≤ T0 then
    exClose (some (i.ExM - o.ExM)) (some (-P + (o.ExT - i.ExT))) (some ⟨some 0, some 0, some (-P)⟩)
  else exClose none none (some ⟨some 0, some 0, some (-P)⟩)

/-- `Valve.exergy_balance` (valve.py 373-397) -/
def valveExergy (T0 : K) (i o : ExStream K) : ExRes K :=
  if T0 < i.T ∧ T0 < o.T then exCloseNan (some (i.ExPh - o.ExPh)) none (some nanBus)
  else if o.T ≤ T0 ∧ T0 < i.T then
    exCloseNan (some (i.ExT + (i.ExM - o.ExM))) (some o.ExT) (some nanBus)
  else if i.T ≤ T0 ∧ o.T ≤ T0 then
    exCloseNan (some (i.ExM - o.ExM)) (some (o.ExT - i.ExT)) (some nanBus)
  else exCloseNan none none (some nanBus)

/-- `HeatExchanger.exergy_balance` (heat_exchangers/base.py 1338-1371) -/
def hexExergy (T0 : K) (i1 i2 o1 o2 : ExStream K) : ExRes K :=
  if T0 < i1.T ∧ T0 < i2.T ∧ T0 < o1.T ∧ T0 < o2.T then
    exCloseNan (some (i1.ExPh - o1.ExPh + (i2.ExM - o2.ExM))) (some (o2.ExT - i2.ExT))
      (some nanBus)
  else if i1.T ≤ T0 ∧ i2.T ≤ T0 ∧ o1.T ≤ T0 ∧ o2.T ≤ T0 then
    exCloseNan (some (i2.ExPh - o2.ExPh + (i1.ExM - o1.ExM))) (some (o1.ExT - i1.ExT))
      (some nanBus)
  else if T0 < i1.T ∧ T0 < o2.T ∧ o1.T ≤ T0 ∧ i2.T ≤ T0 then
    exCloseNan (some (i1.ExPh + i2.ExPh - (o1.ExM + o2.ExM))) (some (o1.ExT + o2.ExT))
      (some nanBus)
  else if T0 < i1.T ∧ i2.T ≤ T0 ∧ o1.T ≤ T0 ∧ o2.T ≤ T0 then
    exCloseNan (some (i1.ExPh + i2.ExPh - (o2.ExPh + o1.ExM))) (some o1.ExT) (some nanBus)
  else if T0 < i1.T ∧ T0 < o1.T ∧ i2.T ≤ T0 ∧ o2.T ≤ T0 then
    exCloseNan (some (i1.ExPh - o1.ExPh + (i2.ExPh - o2.ExPh))) none (some nanBus)
  else
    exCloseNan (some (i1.ExPh - o1.ExPh + (i2.ExPh - o2.ExM))) (some o2.ExT) (some nanBus)

/-- `SimpleHeatExchanger.exergy_balance` (heat_exchangers/simple.py 1048-1139); `dissipative`
after the default of lines 1048-1055. -/
def simpleHexExergy (T0 Q : K) (dissipative : Bool) (i o : ExStream K) : ExRes K :=
  if Q < 0 then
    if T0 ≤ i.T ∧ T0 ≤ o.T then
      let EP := if dissipative then none else some (i.ExT - o.ExT)
      exCloseNan (some (i.ExPh - o.ExPh)) EP (some ⟨some 0, some 0, EP⟩)
    else if T0 ≤ i.T ∧ o.T < T0 then
      exCloseNan (some (i.ExT + o.ExT + (i.ExM - o.ExM))) (some o.ExT)
        (some ⟨some 0, some 0, some (i.ExT + o.ExT)⟩)
    else if i.T ≤ T0 ∧ o.T ≤ T0 then
      exCloseNan (some (o.ExT - o.ExT + (i.ExM - o.ExM))) (some (o.ExT - i.ExT))
        (some ⟨some 0, some 0, some (o.ExT - i.ExT)⟩)
    else exCloseNan none none (some nanBus)
  else if 0 < Q then
    if T0 - 1 / 1000000 ≤ i.T ∧ T0 - 1 / 1000000 ≤ o.T then
      exCloseNan (some (o.ExT - i.ExT)) (some (o.ExPh - i.ExPh))
        (some ⟨some 0, some 0, some (o.ExT - i.ExT)⟩)
    else if i.T ≤ T0 ∧ T0 < o.T then
      exCloseNan (some (i.ExT + (i.ExM - o.ExM))) (some (o.ExT + i.ExT))
        (some ⟨some 0, some 0, some i.ExT⟩)
    else if i.T < T0 ∧ o.T < T0 then
      exCloseNan (some (i.ExT - o.ExT))
        (if dissipative then none else some (i.ExT - o.ExT + (o.ExM - i.ExM)))
        (some ⟨some 0, some 0, some (i.ExT - o.ExT)⟩)
    else exCloseNan none none (some nanBus)
  else exCloseNan (some (i.ExPh - o.ExPh)) none (some nanBus)

/-- one inlet in the loops of `Merge.exergy_balance`: contributions to (E_F, E_P) for an outlet
warmer (merge.py 449-459) and colder (465-475) than the ambient -/
def mergeStep (T0 : K) (o : ExStream K) (acc : K × K) (i : ExStream K) : K × K :=
  if T0 < o.T then
    if i.T < o.T then
      if T0 ≤ i.T then (acc.1, acc.2 + i.m * (o.exPh - i.exPh))
      else (acc.1 + i.ExPh, acc.2 + i.m * o.exPh)
    else (acc.1 + i.m * (i.exPh - o.exPh), acc.2)
  else
    if o.T < i.T then
      if T0 ≤ i.T then (acc.1 + i.ExPh, acc.2 + i.m * o.exPh)
      else (acc.1, acc.2 + i.m * (o.exPh - i.exPh))
    else (acc.1 + i.m * (i.exPh - o.exPh), acc.2)

/-- `Merge.exergy_balance` (merge.py 446-481) -/
def mergeExergy (T0 : K) (inl : List (ExStream K)) (o : ExStream K) : ExRes K :=
  if o.T = T0 then
    exClose (some (inl.foldl (fun a i => a + i.ExPh) 0)) none (some nanBus)
  else
    exClose (some (inl.foldl (mergeStep T0 o) (0, 0)).1)
      (some (inl.foldl (mergeStep T0 o) (0, 0)).2) (some nanBus)

/-- `Drum.exergy_balance` (drum.py 402-409) -/
def drumExergy (i1 i2 o1 o2 : ExStream K) : ExRes K :=
  exClose (some (i1.ExPh + i2.ExPh)) (some (o1.ExPh + o2.ExPh)) (some nanBus)

/-- `CombustionChamber.exergy_balance` (combustion/base.py 1393-1404): `E_bus` is NaN itself;
in `DiabaticCombustionChamber` (diabatic.py 395-407) it is a dictionary of NaN (`diabatic`). -/
def combustionExergy (diabatic : Bool) (i1 i2 o : ExStream K) : ExRes K :=
  exClose (some (i1.ExC + i2.ExC - o.ExC)) (some (o.ExPh - (i1.ExPh + i2.ExPh)))
    (if diabatic then some nanBus else none)

/-- `WaterElectrolyzer.exergy_balance` (water_electrolyzer.py 1171-1181) -/
def electrolyzerExergy (P : K) (i1 i2 o1 o2 o3 : ExStream K) : ExRes K :=
  exClose (some P) (some (o2.ExC + o3.ExC - i2.ExC + o1.ExPh + i1.ExPh)) none

/-! ## Entropy balances -/

/-- `Turbomachine.entropy_balance`, `Valve.entropy_balance` (turbomachinery/base.py 256-258,
valve.py 335-337): S_irr -/
def streamEntropy (i o : ExStream K) : K := i.m * (o.s - i.s)

/-- one side of `HeatExchanger.entropy_balance` (heat_exchangers/base.py 1228-1256): (S_Q, S_irr)
with the entropies at inlet and outlet enthalpy and mean pressure -/
def sideEntropy (i o : ExStream K) (siStar soStar : K) : K × K :=
  (i.m * (soStar - siStar), i.m * (o.s - i.s) - i.m * (soStar - siStar))

/-- `HeatExchanger.entropy_balance` (heat_exchangers/base.py 1227-1258): S_irr -/
def hexEntropy (i1 i2 o1 o2 : ExStream K) (s1i s1o s2i s2o : K) : K :=
  0 + (sideEntropy i1 o1 s1i s1o).2 + (sideEntropy i2 o2 s2i s2o).2
    + ((sideEntropy i1 o1 s1i s1o).1 + (sideEntropy i2 o2 s2i s2o).1)

/-- `SimpleHeatExchanger.entropy_balance` (heat_exchangers/simple.py 950-962): (S_Q, S_irr) -/
def simpleHexEntropy (i o : ExStream K) (siStar soStar : K) : K × K := sideEntropy i o siStar soStar

/-- `Merge.entropy_balance` (merge.py 368-377): S_irr; every stream comes with the entropy of its
fluid at the reference state -/
def mergeEntropy (inl : List (ExStream K × K)) (o : ExStream K × K) : K :=
  inl.foldl (fun a i => a - i.1.m * (i.1.s - i.2)) (o.1.m * (o.1.s - o.2))

/-! ## Analysis of a network -/

/-- the lists of busses passed to the analysis (tools/analyses.py 64-105, 513-571). -/
inductive ExRole
  | fuel | product | internal | loss
  deriving DecidableEq

/-- a component on a bus: list of the bus, base `'bus'` or `'component'`, efficiency (tools/analyses.py 493-515). -/
structure OnBus (K : Type) where
  role : ExRole
  baseBus : Bool
  eff : K

/-- a component of the analysis with the results of its `exergy_balance` (tools/analyses.py 404-434). -/
structure ExComp (K : Type) where
  label : String
  group : String
  res : ExRes K
  on : List (OnBus K)

/-- a row of `bus_data` (tools/analyses.py 513-571). -/
structure ExBusRow (K : Type) where
  label : String
  group : String
  EF : Option K
  EP : Option K
  baseBus : Bool
  deriving DecidableEq

/-- running totals of `network_data` and the rows of `bus_data` (tools/analyses.py 373-376, 493-573). -/
structure ExState (K : Type) where
  EF : Option K
  EP : Option K
  EL : Option K
  rows : List (ExBusRow K)
  deriving DecidableEq

/-- `sum(e for e in cp.E_bus.values() if e)` (analyses.py 514, 542): NaN is true -/
def busSum (b : EBus K) : Option K :=
  nadd (nadd b.chemical b.physical) b.massless

/-- one bus of `evaluate_busses` (analyses.py 513-571). The efficiency is assumed to be nonzero. -/
def evalBus (c : ExComp K) (b : OnBus K) (s : ExState K) : PyRes (ExState K) :=
  match c.res.bus with
  | none => .error .attributeError
  | some eb =>
    let E := busSum eb
    if b.baseBus then
      let EF := ndiv E (some b.eff)
      let rows := s.rows ++ [⟨c.label, c.group, EF, E, true⟩]
      match b.role with
      | .fuel => .ok { s with EF := nadd s.EF EF, rows := rows }
      | .product => .ok { s with EP := nsub s.EP EF, rows := rows }
      | .loss => .ok { s with EL := nsub s.EL EF, rows := rows }
      | .internal => .ok { s with rows := rows }
    else
      let EP := E.map (· * b.eff)
      let rows := s.rows ++ [⟨c.label, c.group, E, EP, false⟩]
      match b.role with
      | .fuel => .ok { s with EF := nsub s.EF EP, rows := rows }
      | .product => .ok { s with EP := nadd s.EP EP, rows := rows }
      | .loss => .ok { s with EL := nadd s.EL EP, rows := rows }
      | .internal => .ok { s with rows := rows }

/-- `evaluate_busses` (analyses.py 493-573): a component on a second bus raises. -/
def evaluateBusses (c : ExComp K) (s : ExState K) : PyRes (ExState K) :=
  match c.on with
  | [] => .ok s
  | [b] => evalBus c b s
  | b :: _ :: _ =>
    match evalBus c b s with
    | .error e => .error e
    | .ok _ => .error .networkError

/-- the loop over the components (analyses.py 409-434) -/
def analyseLoop (reserved : List String) : List (ExComp K) → ExState K → PyRes (ExState K)
  | [], s => .ok s
  | c :: cs, s =>
    if c.group ∈ reserved then .error .valueError
    else
      match evaluateBusses c s with
      | .error e => .error e
      | .ok s => analyseLoop reserved cs s

/-- sum of a column: NaN is skipped (`pandas.Series.sum`, tools/analyses.py 460-463). -/
def colSum (l : List (Option K)) : K := (l.filterMap id).sum

/-- E_D of a row of `bus_data` (analyses.py 575) -/
def ExBusRow.ED (r : ExBusRow K) : Option K := nsub r.EF r.EP

/-- network results (tools/analyses.py 373-376, 460-463). -/
structure ExNetRes (K : Type) where
  EF : Option K
  EP : Option K
  ED : K
  EL : Option K
  deriving DecidableEq

/-- `analyse` (analyses.py 373-376, 409-434, 460-463) -/
def analyse (reserved : List String) (comps : List (ExComp K)) :
    PyRes (ExNetRes K × List (ExBusRow K)) :=
  match analyseLoop reserved comps ⟨some 0, some 0, some 0, []⟩ with
  | .error e => .error e
  | .ok s => .ok (⟨s.EF.map fun x => |x|, s.EP.map fun x => |x|,
      colSum (comps.map fun c => c.res.ED) + colSum (s.rows.map ExBusRow.ED), s.EL⟩, s.rows)

/-- the residual of the exergy balance (analyses.py 477-480) -/
def exResidual (r : ExNetRes K) : Option K :=
  (nsub (nsub (nsub r.EF r.EP) (some r.ED)) r.EL).map fun x => |x|

/-- E_D of a component in `aggregation_data` (analyses.py 444-449): rows of components on a bus
get the sum with the E_D of the bus -/
def aggED (rows : List (ExBusRow K)) (c : ExComp K) : Option K :=
  match rows.find? fun r => r.label = c.label with
  | some r => nadd c.res.ED r.ED
  | none => c.res.ED

/-- E_D of a functional group (analyses.py 579-583, 642-644) -/
def groupED (rows : List (ExBusRow K)) (comps : List (ExComp K)) (g : String) : K :=
  colSum ((comps.filter fun c => c.group = g).map (aggED rows))

end
end Tespy
