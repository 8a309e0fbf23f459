import Verif.Model.Py
import Mathlib.Algebra.BigOperators.Group.Finset.Basic
import Mathlib.Algebra.Order.Field.Basic

/-!
Combustion chambers (components/combustion/base.py, diabatic.py, engine.py).

Simplifications: numbers form a linearly ordered field (no rounding). Fluids are elements of a
type `F`; `fuel_list` and `fluid_eqs` are Python sets and finite sets here. `x / 0 = 0` in the
model for molar masses and for the oxygen demand of a single fuel (both are positive for every fuel
in `combustion_gases`); the division by the total stoichiometric oxygen raises in model and code.
The inlets are those of the combustion reaction (`_get_combustion_connections`: all inlets of a
combustion chamber, the last two of an engine).
-/
namespace Tespy

variable {F K : Type} [DecidableEq F] [Field K] [LinearOrder K]

/-- Reaction data of `setup_reaction_parameters` (combustion/base.py 251-301): names of the gases,
fuels with their numbers of carbon and hydrogen atoms, molar masses, lower heating values. -/
structure CombData (F K : Type) where
  o2 : F
  co2 : F
  h2o : F
  fuels : Finset F
  C : F → K
  H : F → K
  M : F → K
  LHV : F → K

/-- A stream: mass flow, composition, enthalpy and the enthalpy `h_mix_pT(p_ref, T_ref)` of its
composition at reference conditions (the values read in components/combustion/base.py 605-680 and 837-855). -/
structure CombStream (F K : Type) where
  m : K
  x : F → K
  h : K
  href : K

/-- combustion/base.py 605-608, 998-1002: molar flow of a fluid over all inlets. -/
def nIn (d : CombData F K) (inl : List (CombStream F K)) (f : F) : K :=
  (inl.map (fun i => i.m * i.x f / d.M f)).sum

/-- base.py 609, 1003: hydrogen atoms supplied by the fuels. -/
def nH (d : CombData F K) (inl : List (CombStream F K)) : K :=
  ∑ f ∈ d.fuels, nIn d inl f * d.H f
/-- base.py 610, 1004: carbon atoms supplied by the fuels. -/
def nC (d : CombData F K) (inl : List (CombStream F K)) : K :=
  ∑ f ∈ d.fuels, nIn d inl f * d.C f
/-- base.py 617-621, 1006-1011. -/
def nO2 (d : CombData F K) (inl : List (CombStream F K)) : K := nIn d inl d.o2
/-- base.py 625, 1012: stoichiometric oxygen. -/
def nStoich (d : CombData F K) (inl : List (CombStream F K)) : K := nH d inl / 4 + nC d inl

/-- base.py 976-1013 `calc_lambda`. -/
def calcLambda (d : CombData F K) (inl : List (CombStream F K)) : PyRes K :=
  if nStoich d inl = 0 then .error .zeroDivision else .ok (nO2 d inl / nStoich d inl)

/-- base.py 628-630: the specified value, or the current one if lambda is not specified. -/
def lambdaVal (d : CombData F K) (inl : List (CombStream F K)) (spec : Option K) : PyRes K :=
  match spec with
  | some l => .ok l
  | none => calcLambda d inl

/-- base.py 634-639: excess hydrogen. -/
def hExc (d : CombData F K) (inl : List (CombStream F K)) (lam : K) : K :=
  if lam < 1 then (nStoich d inl - nO2 d inl) * 4 else 0
/-- base.py 634-639: excess carbon. -/
def cExc (d : CombData F K) (inl : List (CombStream F K)) (lam : K) : K :=
  if lam < 1 then nStoich d inl - nO2 d inl else 0
/-- base.py 662-668: excess fuel. -/
def fuelExc (d : CombData F K) (inl : List (CombStream F K)) (lam : K) (f : F) : K :=
  if lam < 1 then
    -(nO2 d inl / nStoich d inl - 1) * (nIn d inl f * (d.H f / 4 + d.C f)) / (d.H f / 4 + d.C f)
  else 0

/-- base.py 641-674: change of mass flow of a fluid by the reaction. -/
def combDm (d : CombData F K) (inl : List (CombStream F K)) (lam : K) (f : F) : K :=
  if f = d.co2 then (nC d inl - cExc d inl lam) * d.M d.co2
  else if f = d.h2o then (nH d inl - hExc d inl lam) / 2 * d.M d.h2o
  else if f = d.o2 then
    if lam < 1 then -nO2 d inl * d.M d.o2 else -nO2 d inl / lam * d.M d.o2
  else if f ∈ d.fuels then -(nIn d inl f - fuelExc d inl lam f) * d.M f
  else 0

/-- base.py 496-680 `stoichiometry`. -/
def stoichRes (d : CombData F K) (inl : List (CombStream F K)) (out : CombStream F K)
    (spec : Option K) (f : F) : PyRes K :=
  match lambdaVal d inl spec with
  | .error e => .error e
  | .ok lam => .ok (combDm d inl lam f + (inl.map (fun i => i.x f * i.m)).sum - out.x f * out.m)

/-- base.py 372-373 `mass_flow_func`. -/
def combMassRes (inl : List (CombStream F K)) (out : CombStream F K) : K :=
  (inl.map (fun i => i.m)).sum - out.m

/-- base.py 928 `lambda_func`. -/
def lambdaRes (d : CombData F K) (inl : List (CombStream F K)) (spec : K) : PyRes K :=
  match calcLambda d inl with
  | .error e => .error e
  | .ok l => .ok (l - spec)

/-- base.py 1105-1117 `calc_ti`: thermal input. -/
def combTi (d : CombData F K) (inl : List (CombStream F K)) (out : CombStream F K) : K :=
  ∑ f ∈ d.fuels, ((inl.map (fun i => i.m * i.x f)).sum - out.m * out.x f) * d.LHV f

/-- base.py 837-855 `energy_balance_func`; diabatic.py 310-329 multiplies the thermal input by
`eta` (1 for the combustion chamber). -/
def combEnergyRes (d : CombData F K) (inl : List (CombStream F K)) (out : CombStream F K)
    (eta : K) : K :=
  (inl.map (fun i => i.m * (i.h - i.href))).sum - out.m * (out.h - out.href)
    + combTi d inl out * eta

/-- diabatic.py 368-384: reported efficiency and heat loss. -/
def diabaticReported (d : CombData F K) (inl : List (CombStream F K)) (out : CombStream F K) :
    PyRes (K × K) :=
  if combTi d inl out = 0 then .error .zeroDivision
  else
    let res := (inl.map (fun i => i.m * (i.h - i.href))).sum - out.m * (out.h - out.href)
    .ok (-res / combTi d inl out, -(1 - -res / combTi d inl out) * combTi d inl out)

/-- base.py 346-357 `calc_lhv` for formation enthalpies `hf` (J/mol instead of kJ/mol · 1000). -/
def lhvOf (d : CombData F K) (hf : F → K) (f : F) : K :=
  -(d.H f / 2 * hf d.h2o + d.C f * hf d.co2 - ((d.C f + d.H f / 4) * hf d.o2 + hf f)) / d.M f

end Tespy
