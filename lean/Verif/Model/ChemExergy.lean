import Verif.Model.Mixture
import Mathlib.Analysis.SpecialFunctions.Log.Basic
/-!
Chemical exergy of streams (tools/fluid_properties/functions.py, mixtures.py; connections/connection.py).

Simplifications: real numbers without rounding; the names CoolProp knows for a fluid (`wrapper._aliases`) are a parameter.
-/
namespace Tespy

/-- Reference phases of the tables (position in the row: 1, 2, 3) (tools/fluid_properties/functions.py 81). -/
inductive ChemPhase where
  | solid
  | liquid
  | gas
deriving DecidableEq

/-- Row of a table of standard chemical exergies (data/ChemEx/*.json): values of the three phases and position of the
reference phase. `none` is the string "NaN". The CAS number is left out
(read by tools/helpers.py 41-45, indexed in tools/fluid_properties/functions.py 81). -/
structure ChemRow where
  solid : Option ℝ
  liquid : Option ℝ
  gas : Option ℝ
  ref : Option ChemPhase

/-- Table (`get_chem_ex_lib`, helpers.py 41-45) -/
abbrev ChemTable := Dict String ChemRow

/-- `Chem_Ex[k][Chem_Ex[k][4]]` (functions.py 81): a string is no index -/
def ChemRow.refValue (r : ChemRow) : PyRes (Option ℝ) :=
  match r.ref with
  | none => .error .typeError
  | some .solid => .ok r.solid
  | some .liquid => .ok r.liquid
  | some .gas => .ok r.gas

/-- the rows found for the names of a fluid (functions.py 81, mixtures.py 258-260, 263) -/
def chemHits (tab : ChemTable) (aliases : List String) : List ChemRow := aliases.filterMap (Dict.get? tab)

/-- the list of reference values (functions.py 81) -/
def refValues : List ChemRow → PyRes (List (Option ℝ))
  | [] => .ok []
  | r :: rs =>
    match r.refValue with
    | .error e => .error e
    | .ok v =>
      match refValues rs with
      | .error e => .error e
      | .ok l => .ok (v :: l)

/-- `y[0]` as a factor: `IndexError` for an empty list, `TypeError` for a string
(tools/fluid_properties/functions.py 81-82). -/
def firstValue : List (Option ℝ) → PyRes ℝ
  | [] => .error .indexError
  | none :: _ => .error .typeError
  | some v :: _ => .ok v

/-- pure fluids (functions.py 78-82) -/
noncomputable def chemPure (tab : ChemTable) (aliases : List String) (M : ℝ) : PyRes ℝ :=
  match refValues (chemHits tab aliases) with
  | .error e => .error e
  | .ok l =>
    match firstValue l with
    | .error e => .error e
    | .ok v =>
      match fdiv v M with
      | .error e => .error e
      | .ok r => .ok (r * 1000)

/-- `gas_constants['uni'] * 1e-3` (global_vars.py 15) -/
noncomputable def gasConst : ℝ := 8.314462618 / 1000

/-- condensed water in one turn of the loop (mixtures.py 257-261) -/
noncomputable def chemCond (tab : ChemTable) (aliases : List String) (liq : ℝ) : PyRes ℝ :=
  if 0 < liq ∧ "water" ∈ aliases then
    match firstValue ((chemHits tab aliases).map (·.liquid)) with
    | .error e => .error e
    | .ok v => .ok (liq * v)
  else .ok 0

/-- the loop over the species of the gas phase (mixtures.py 250-264): `ex_cond`, `ex_dry`. `math.log` raises for negative
numbers. -/
noncomputable def chemLoop (al : String → List String) (tab : ChemTable) (fd : FluidData ℝ) (Tamb liq : ℝ) :
    Dict String ℝ → PyRes (ℝ × ℝ)
  | [] => .ok (0, 0)
  | (f, x) :: xs =>
    if x = 0 then chemLoop al tab fd Tamb liq xs
    else
      match Dict.getItem fd f with
      | .error e => .error e
      | .ok _ =>
        match chemCond tab (al f) liq with
        | .error e => .error e
        | .ok c =>
          match firstValue ((chemHits tab (al f)).map (·.gas)) with
          | .error e => .error e
          | .ok v =>
            if x < 0 then .error .mathDomain
            else
              match chemLoop al tab fd Tamb liq xs with
              | .error e => .error e
              | .ok r => .ok (c + r.1, x * v + Tamb * gasConst * x * Real.log x + r.2)

/-- mole fractions of the gas phase and liquid part (mixtures.py 238-247) -/
noncomputable def chemSplit (water : Option String) (pamb Tamb : ℝ) (fd : FluidData ℝ) (xs : Dict String ℝ) :
    PyRes (Dict String ℝ × ℝ) :=
  match water with
  | none => .ok (xs, 0)
  | some w =>
    match condCheck pamb Tamb fd w with
    | .error e => .error e
    | .ok c => .ok (c.molarGas, c.molarLiquid)

/-- `exergy_chemical_ideal_cond` (mixtures.py 236-271). `water`: the name of water in the mixture, if any. -/
noncomputable def chemMix (al : String → List String) (tab : ChemTable) (water : Option String) (pamb Tamb : ℝ)
    (fd : FluidData ℝ) : PyRes ℝ :=
  match molarFractions fd with
  | .error e => .error e
  | .ok xs =>
    match chemSplit water pamb Tamb fd xs with
    | .error e => .error e
    | .ok (gas, liq) =>
      match chemLoop al tab fd Tamb liq gas with
      | .error e => .error e
      | .ok (cond, dry) =>
        match molarMass fd xs with
        | .error e => .error e
        | .ok m =>
          match fdiv 1 m with
          | .error e => .error e
          | .ok r => .ok ((cond + dry * (1 - liq)) * r * 1000)

/-- `calc_chemical_exergy` (functions.py 77-85) with `EXERGY_CHEMICAL` (mixtures.py 379-381) and `_check_mixing_rule`
(helpers.py 29-37) -/
noncomputable def calcChemExergy (al : String → List String) (tab : ChemTable) (water rule : Option String)
    (pamb Tamb : ℝ) (fd : FluidData ℝ) : PyRes ℝ :=
  if numFluids fd = 1 then
    match (fd.filter detected).head? with
    | none => .error .typeError
    | some q => chemPure tab (al q.1) q.2.w.M
  else if rule = some "ideal-cond" then chemMix al tab water pamb Tamb fd
  else .error .keyError

/-- `Connection.get_chemical_exergy` (connection.py 1107-1135): `ex_chemical`, `Ex_chemical` -/
noncomputable def connChemExergy (al : String → List String) (tab : Option ChemTable) (water rule : Option String)
    (pamb Tamb m : ℝ) (fd : FluidData ℝ) : PyRes (ℝ × ℝ) :=
  match tab with
  | none => .ok (0, m * 0)
  | some t =>
    match calcChemExergy al t water rule pamb Tamb fd with
    | .error e => .error e
    | .ok e => .ok (e, m * e)

end Tespy
