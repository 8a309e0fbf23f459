import Verif.Model.HeatTransfer
import Verif.Model.Solar
import Verif.Model.Reactors
import Verif.Model.Engine
import Verif.Model.Combustion
import Verif.Model.Eqs

/-!
The equations printed in the LaTeX report (`document_model`): every definition transcribes the formula in the string
of a `*_func_doc` method or of `latex_eq`, read as mathematics, symbol by symbol. `0 = …` becomes the proposition.

Simplifications: real numbers (or elements of a field for formulas without functions); an index is read as the
connection of that number, e.g. `in,1` is `inl[0]`; `f(X)` is the value of the characteristic line, `v` the specific
volume, `h_{out,s}` the enthalpy after isentropic change of state, `ref` the state at reference conditions. A quotient
or logarithm without a value (`Doc.logMean`) is `none`; the other definitions are used with denominators different from
zero only.
-/
namespace Tespy
namespace Doc

noncomputable section

/-! ### turbomachines -/

/-- turbomachinery/base.py 121-139 -/
def turboP (i o : HStream) (P : ℝ) : Prop := 0 = i.m * (o.h - i.h) - P
/-- turbomachinery/pump.py 220-238, compressor.py 221-239 -/
def pumpEta (i o : HStream) (hs eta : ℝ) : Prop := 0 = -(o.h - i.h) * eta + (hs - i.h)
/-- turbomachinery/pump.py 302-321, compressor.py 303-322; `f` is the value of the line -/
def pumpEtaChar (i o : HStream) (hs etaDesign f : ℝ) : Prop := 0 = (o.h - i.h) * etaDesign * f - (hs - i.h)
/-- turbomachinery/turbine.py 210-228 -/
def turbineEta (i o : HStream) (hs eta : ℝ) : Prop := 0 = -(o.h - i.h) + (hs - i.h) * eta
/-- turbomachinery/turbine.py 389-408; `f` is the value of the line -/
def turbineEtaChar (i o : HStream) (hs etaDesign f : ℝ) : Prop :=
  0 = -(o.h - i.h) + etaDesign * f * (hs - i.h)
/-- turbomachinery/turbine.py 299-322; `pOutDesign` is the pressure at the outlet in the design case. -/
def cone (i o : HStream) (di : HDesign) (pOutDesign : ℝ) : Prop :=
  0 = di.m * i.p / di.p * Real.sqrt (di.p * i.vol / (i.p * di.vol)
    * ((1 - (o.p / i.p) ^ 2) / (1 - (pOutDesign / di.p) ^ 2))) - i.m

/-! ### heat exchangers -/

/-- heat_exchangers/base.py 345-364 -/
def hexEnergy (s : HexState) : Prop := 0 = s.i1.m * (s.o1.h - s.i1.h) + s.i2.m * (s.o2.h - s.i2.h)
/-- heat_exchangers/base.py 403-421 -/
def hexQ (s : HexState) (Q : ℝ) : Prop := 0 = s.i1.m * (s.o1.h - s.i1.h) - Q
/-- heat_exchangers/base.py 654-670 -/
def hexTtdU (s : HexState) (ttd : ℝ) : Prop := 0 = ttd - s.i1.T + s.o2.T
/-- heat_exchangers/condenser.py 452-470 -/
def condTtdU (s : HexState) (ttd : ℝ) : Prop := 0 = ttd - s.Tsat + s.o2.T
/-- heat_exchangers/base.py 709-725 -/
def hexTtdL (s : HexState) (ttd : ℝ) : Prop := 0 = ttd - s.o1.T + s.i2.T

/-- The fraction `(a - b) / ln(a / b)` in heat_exchangers/base.py 511-519, condenser.py 360-370: it has no value for
`b = 0`, for differences of opposite sign and for `a = b`. -/
def logMean (a b : ℝ) : Option ℝ :=
  if b = 0 ∨ a / b ≤ 0 ∨ a = b then none else some ((a - b) / Real.log (a / b))

/-- heat_exchangers/base.py 497-519 (`kA`) and 584-612 (`kA_design · f_kA`) -/
def hexKA (s : HexState) (kA : ℝ) : Prop :=
  ∃ td, logMean (s.o1.T - s.i2.T) (s.i1.T - s.o2.T) = some td ∧ 0 = s.i1.m * (s.o1.h - s.i1.h) + kA * td
/-- heat_exchangers/condenser.py 346-370 and 398-427 -/
def condKA (s : HexState) (kA : ℝ) : Prop :=
  ∃ td, logMean (s.o1.T - s.i2.T) (s.Tsat - s.o2.T) = some td ∧ 0 = s.i1.m * (s.o1.h - s.i1.h) + kA * td
/-- The factor in heat_exchangers/base.py 608-610, condenser.py 422-424 -/
def fkA (f1 f2 : ℝ) : ℝ := 2 / (1 / f1 + 1 / f2)

/-- component.py 1033-1059 -/
def pr (i o : HStream) (pr : ℝ) : Prop := 0 = i.p * pr - o.p
/-- component.py 1158-1192; `zeta` is `ζ / D^4`. -/
def zeta (i o : HStream) (zeta : ℝ) : Prop :=
  if |i.m| < 0.0001 then 0 = i.p - o.p
  else 0 = zeta - (i.p - o.p) * Real.pi ^ 2 / (8 * i.m * |i.m| * ((i.vol + o.vol) / 2))

/-- heat_exchangers/simple.py 275-294 -/
def simpleQ (i o : HStream) (Q : ℝ) : Prop := 0 = i.m * (o.h - i.h) - Q
/-- heat_exchangers/simple.py 360-385; `lam` is the Darcy friction factor. -/
def darcy (i o : HStream) (L D lam : ℝ) : Prop :=
  0 = i.p - o.p - 8 * |i.m| * i.m * ((i.vol + o.vol) / 2) * L * lam / (Real.pi ^ 2 * D ^ 5)
/-- heat_exchangers/simple.py 461-482; `g` is the value 9.81 of the code (simple.py 458). -/
def hazen (i o : HStream) (L ks D : ℝ) : Prop :=
  0 = (i.p - o.p) - 10.67 * |i.m| ^ (1.852 : ℝ) * L / (ks ^ (1.852 : ℝ) * D ^ (4.871 : ℝ)) * 9.81
    * ((i.vol + o.vol) / 2) ^ (0.852 : ℝ)
/-- heat_exchangers/simple.py 560-591 (`kA`) and 676-709 (`kA_design · f_kA`): the mean temperature difference; `none`
if the fraction has no value. -/
def simpleLog (Ti To Tamb : ℝ) : Option ℝ :=
  if Ti > To then logMean (Ti - Tamb) (To - Tamb)
  else if Ti < To then logMean (To - Tamb) (Ti - Tamb)
  else some 0
/-- heat_exchangers/simple.py 560-591 -/
def simpleKA (i o : HStream) (Tamb kA : ℝ) : Prop :=
  ∃ td, simpleLog i.T o.T Tamb = some td ∧ 0 = i.m * (o.h - i.h) + kA * td

/-- heat_exchangers/solar_collector.py 244-270 -/
def solar (c : SolarState) (p : SolarParams) : Prop :=
  0 = c.m * (c.hOut - c.hIn) - p.A * (p.E * p.etaOpt - p.lin * ((c.TOut + c.TIn) / 2 - p.Tamb)
    - p.quad * ((c.TOut + c.TIn) / 2 - p.Tamb) ^ 2)
/-- heat_exchangers/parabolic_trough.py 291-320 -/
def trough (c : SolarState) (p : TroughParams) : Prop :=
  0 = c.m * (c.hOut - c.hIn) - p.A * (p.E * p.etaOpt * p.doc ^ (1.5 : ℝ) * (1 - p.iam1 * |p.aoi| - p.iam2 * p.aoi ^ 2)
    - p.c1 * ((c.TOut + c.TIn) / 2 - p.Tamb) - p.c2 * ((c.TOut + c.TIn) / 2 - p.Tamb) ^ 2)

end

/-! ### combustion -/

section
variable {F K : Type} [DecidableEq F] [Field K]

/-- combustion/base.py 375-393 -/
def combMass (i1 i2 out : CombStream F K) : Prop := 0 = i1.m + i2.m - out.m

/-- The thermal input in combustion/base.py 857-886, 1031-1057, 1142-1163; the report writes one `fuel`, which stands
for each of the fuels. -/
def ti (d : CombData F K) (i1 i2 out : CombStream F K) : K :=
  ∑ f ∈ d.fuels, d.LHV f * ((i1.m * i1.x f + i2.m * i2.x f) - out.m * out.x f)

/-- combustion/base.py 857-886 -/
def combEnergy (d : CombData F K) (i1 i2 out : CombStream F K) : Prop :=
  0 = (i1.m * (i1.h - i1.href) + i2.m * (i2.h - i2.href)) - out.m * (out.h - out.href) + ti d i1 i2 out
/-- combustion/diabatic.py 331-360 -/
def diabaticEnergy (d : CombData F K) (i1 i2 out : CombStream F K) (eta : K) : Prop :=
  0 = (i1.m * (i1.h - i1.href) + i2.m * (i2.h - i2.href)) - out.m * (out.h - out.href) + ti d i1 i2 out * eta
/-- combustion/base.py 1031-1057 -/
def combTi (d : CombData F K) (i1 i2 out : CombStream F K) (spec : K) : Prop := 0 = spec - ti d i1 i2 out

/-- `\dot m_{fluid,m}` in combustion/base.py 743-745 -/
def molar (d : CombData F K) (i1 i2 : CombStream F K) (f : F) : K := (i1.m * i1.x f + i2.m * i2.x f) / d.M f
/-- `\dot m_{H,m}` in combustion/base.py 749-758 -/
def molarH (d : CombData F K) (i1 i2 : CombStream F K) : K := ∑ f ∈ d.fuels, molar d i1 i2 f * d.H f
/-- `\dot m_{C,m}` in combustion/base.py 750-759 -/
def molarC (d : CombData F K) (i1 i2 : CombStream F K) : K := ∑ f ∈ d.fuels, molar d i1 i2 f * d.C f
/-- `\Delta\dot m_{fluid}` in combustion/base.py 740-742 -/
def delta (i1 i2 out : CombStream F K) (f : F) : K := i1.m * i1.x f + i2.m * i2.x f - out.m * out.x f

/-- combustion/base.py 682-778, the cases of the loop in the order of the code -/
def stoich (d : CombData F K) (i1 i2 out : CombStream F K) (f : F) : Prop :=
  if f = d.o2 then 0 = delta i1 i2 out f - (molarH d i1 i2 / 4 + molarC d i1 i2) * d.M d.o2
  else if f = d.co2 then 0 = delta i1 i2 out f + molarC d i1 i2 * d.M d.co2
  else if f = d.h2o then 0 = delta i1 i2 out f + molarH d i1 i2 / 2 * d.M d.h2o
  else if f ∈ d.fuels then 0 = delta i1 i2 out f - molar d i1 i2 f * d.M f
  else 0 = delta i1 i2 out f

/-- combustion/base.py 930-954; the report writes one `fuel`. -/
def lambda (d : CombData F K) (i1 i2 : CombStream F K) (fuel : F) (lam : K) : Prop :=
  0 = molar d i1 i2 fuel / (molar d i1 i2 d.o2 * (d.C fuel + 1 / 4 * d.H fuel)) - lam

/-- combustion/engine.py 419-449; `Q1`, `Q2` are the parameters of the engine. -/
def engineEnergy (d : CombData F K) (i3 i4 out : CombStream F K) (Q1 Q2 P Qloss : K) : Prop :=
  0 = (i3.m * (i3.h - i3.href) + i4.m * (i4.h - i4.href)) - out.m * (out.h - out.href) + ti d i3 i4 out
    + Q1 + Q2 + P + Qloss
/-- combustion/engine.py 519-537, 577-595 -/
def engineHeat (l : CoolLoop K) (Q : K) : Prop := 0 = l.m * (l.hOut + l.hIn) + Q
/-- combustion/engine.py 643-669; `f` is the value of the line. -/
def enginePower (d : CombData F K) (i3 i4 out : CombStream F K) (P f : K) : Prop := 0 = P * f + ti d i3 i4 out
/-- combustion/engine.py 726-755, 823-852; `fq`, `f` are the values of the lines. -/
def engineHeatChar (d : CombData F K) (i3 i4 out : CombStream F K) (l : CoolLoop K) (fq f : K) : Prop :=
  0 = ti d i3 i4 out * fq - l.m * (l.hOut - l.hIn) * f
/-- combustion/engine.py 914-937 -/
def engineLoss (d : CombData F K) (i3 i4 out : CombStream F K) (Qloss fq f : K) : Prop :=
  0 = ti d i3 i4 out * fq + Qloss * f

end

/-! ### reactors -/

section
variable {K : Type} [Field K]

/-- reactors/fuel_cell.py 274-290; `e0` is the value of `calc_e0`. -/
def cellEta (v : ReactorVals K) (e0 eta : K) : Prop := 0 = v.P - eta * v.hydrogen.m * e0
/-- reactors/fuel_cell.py 325-343 -/
def cellHeat (v : ReactorVals K) (Q : K) : Prop := 0 = Q + v.loop.m * (v.loop.hOut - v.loop.hIn)
/-- reactors/fuel_cell.py 380-396, water_electrolyzer.py 479-495 -/
def spec (v : ReactorVals K) (e : K) : Prop := 0 = v.P - v.hydrogen.m * e
/-- reactors/fuel_cell.py 445-474 -/
def cellEnergy (v : ReactorVals K) (e0 : K) : Prop :=
  0 = v.P + v.water.m * (v.water.h - v.water.href) + v.loop.m * (v.loop.hOut - v.loop.hIn)
    - v.oxygen.m * (v.oxygen.h - v.oxygen.href) - v.hydrogen.m * (v.hydrogen.h - v.hydrogen.href - e0)
/-- reactors/fuel_cell.py 560-584: the first equation names outlet 1, the cooling water, whose mass flow is that of the
cooling loop. -/
def cellMass (MO2 : K) (v : ReactorVals K) : Prop :=
  0 = MO2 / (MO2 + 2 * v.MH2) * v.loop.m - v.oxygen.m
    ∧ 0 = (1 - MO2 / (MO2 + 2 * v.MH2)) * v.water.m - v.hydrogen.m
/-- reactors/water_electrolyzer.py 373-389 -/
def elecEta (v : ReactorVals K) (e0 eta : K) : Prop := 0 = v.P * eta - v.hydrogen.m * e0
/-- reactors/water_electrolyzer.py 424-442 -/
def elecHeat (v : ReactorVals K) (Q : K) : Prop := 0 = Q - v.loop.m * (v.loop.hIn - v.loop.hOut)
/-- reactors/water_electrolyzer.py 544-573 -/
def elecEnergy (v : ReactorVals K) (e0 : K) : Prop :=
  0 = v.P + v.water.m * (v.water.h - v.water.href) - v.loop.m * (v.loop.hOut - v.loop.hIn)
    - v.oxygen.m * (v.oxygen.h - v.oxygen.href) + v.hydrogen.m * (v.hydrogen.h - v.hydrogen.href + e0)
/-- reactors/water_electrolyzer.py 656-682; `f` is the value of the line. -/
def elecChar (v : ReactorVals K) (e0 etaDesign f : K) : Prop := 0 = v.P - v.hydrogen.m * (e0 / (etaDesign * f))
/-- reactors/water_electrolyzer.py 734-759, the two equations for the gases -/
def elecMass (MO2 : K) (v : ReactorVals K) : Prop :=
  0 = MO2 / (MO2 + 2 * v.MH2) * v.water.m - v.oxygen.m
    ∧ 0 = (1 - MO2 / (MO2 + 2 * v.MH2)) * v.water.m - v.hydrogen.m

end

/-! ### nodes and connections -/

section
variable {K : Type} [CommRing K]

/-- nodes/base.py 43-61 -/
def nodeMass (s : EqState K) (inl outl : List Port) : Prop := 0 = (inl.map s.mv).sum - (outl.map s.mv).sum
/-- nodes/base.py 100-124; `i0` is the first inlet, `inl` are the others. -/
def nodePressure (s : EqState K) (i0 : Port) (inl outl : List Port) : Prop :=
  (∀ i ∈ inl, 0 = s.pv i0 - s.pv i) ∧ ∀ j ∈ outl, 0 = s.pv i0 - s.pv j
/-- nodes/droplet_separator.py 201-222 -/
def nodeEnergy (s : EqState K) (inl outl : List Port) : Prop :=
  0 = (inl.map (fun i => s.mv i * s.hv i)).sum - (outl.map (fun j => s.mv j * s.hv j)).sum
/-- nodes/droplet_separator.py 269-290 -/
def outletStates (F : PropFuncs K) (s : EqState K) (o1 o2 : Port) : Prop :=
  0 = s.hv o1 - F.hPQ (s.xv o1) (s.pv o1) false ∧ 0 = s.hv o2 - F.hPQ (s.xv o2) (s.pv o2) true
/-- nodes/merge.py 211-232 for the fluids `fl` -/
def mergeFluid (s : EqState K) (fl : List String) (inl : List Port) (o : Port) : Prop :=
  ∀ f ∈ fl, 0 = (inl.map (fun i => s.mv i * s.xv i f)).sum - s.mv o * s.xv o f
/-- nodes/merge.py 278-298 -/
def mergeEnergy (s : EqState K) (inl : List Port) (o : Port) : Prop :=
  0 = (inl.map (fun i => s.mv i * s.hv i)).sum - s.mv o * s.hv o
/-- nodes/splitter.py 185-196 -/
def splitEnergy (s : EqState K) (i : Port) (outl : List Port) : Prop := ∀ j ∈ outl, 0 = s.hv i - s.hv j
/-- nodes/separator.py 305-324 -/
def sepEnergy (F : PropFuncs K) (s : EqState K) (i : Port) (outl : List Port) : Prop :=
  ∀ j ∈ outl, 0 = s.tv F i - s.tv F j
/-- nodes/separator.py 236-257 -/
def sepFluid (s : EqState K) (fl : List String) (i : Port) (outl : List Port) : Prop :=
  ∀ f ∈ fl, ∀ j ∈ outl, 0 = s.mv i * s.xv i f - s.mv j * s.xv j f

/-- tools/global_vars.py 67 (`T`) -/
def connT (F : ConnFuncs K) (s : EqState K) (c : Port) (spec : K) : Prop := 0 = s.tv F.toPropFuncs c - spec
/-- tools/global_vars.py 35-36 (`v`) -/
def connV (F : ConnFuncs K) (s : EqState K) (c : Port) (spec : K) : Prop :=
  0 = s.mv c * F.vol (s.xv c) (s.pv c) (s.hv c) - spec
/-- tools/global_vars.py 91 (`x`) -/
def connX (F : ConnFuncs K) (s : EqState K) (c : Port) (spec : K) : Prop :=
  0 = s.hv c - F.hQ (s.xv c) (s.pv c) spec
/-- tools/global_vars.py 76 (`Td_bp`) -/
def connTd (F : ConnFuncs K) (s : EqState K) (c : Port) (spec : K) : Prop := 0 = spec - F.tSat (s.xv c) (s.pv c)
/-- tools/document_models.py 451-453 -/
def connRef (value ref factor delta : K) : Prop := 0 = value - ref * factor + delta

end

end Doc
end Tespy
