import Verif.Model.Mixture
import Verif.Model.ReactionSetup

/-!
The kind of fluid of a stream in the Grassmann diagram (tools/analyses.py 30-58) and the functions of saturated pure
fluids (tools/fluid_properties/functions.py 167-189).

`aliases` is `CP.get_aliases`; `none` is the `RuntimeError` for incompressible fluids, other exceptions are not modelled.
`conn.fluid.val` and `conn.fluid_data` have the same fluids and mass fractions (connections/connection.py 712-718).
-/
namespace Tespy
variable {K : Type} [Field K] [LinearOrder K]

/-- The four texts (tools/analyses.py 33, 38, 52, 54, 56). -/
inductive FluidCat
  | nonCombustionGas | combustionGas | incompressible | twoPhase
  deriving DecidableEq

/-- `fluidalias_in_list(f, combustion_gases)` (tools/helpers.py 48-50); `none`: `RuntimeError`. -/
def isFuelName (aliases : String → Option (List String)) (f : String) : Option Bool :=
  match aliases f with
  | none => none
  | some as => some (as.any (fun a => decide (stripBlanks a ∈ combustionGases)))

/-- `single_fluid` (tools/fluid_properties/helpers.py 50-57); falling out of the loop gives `None`. -/
def singleFluidName (fd : FluidData K) : Option String :=
  if 1 < numFluids fd then none else ((fd.filter detected).head?).map Prod.fst

/-- The loop over `conn.fluid.val` (tools/analyses.py 34-42). -/
def mixtureCat (aliases : String → Option (List String)) : FluidData K → FluidCat
  | [] => .nonCombustionGas
  | e :: fd =>
    if ERR < e.2.y then
      match isFuelName aliases e.1 with
      | some true => .combustionGas
      | some false => mixtureCat aliases fd
      | none => mixtureCat aliases fd
    else mixtureCat aliases fd

/-- `categorize_fluids` (tools/analyses.py 30-58) -/
def categorizeFluids (aliases : String → Option (List String)) (fd : FluidData K) : FluidCat :=
  match singleFluidName fd with
  | none => mixtureCat aliases fd
  | some fluid =>
    match isFuelName aliases fluid with
    | some true => .combustionGas
    | none => .incompressible
    | some false => .twoPhase

/-- `T_sat_p` (tools/fluid_properties/functions.py 176-182) -/
def tSatP (p : K) (fd : FluidData K) : PyRes K :=
  if numFluids fd = 1 then match pureFluid fd with
    | some e => .ok (e.w.tSat p)
    | none => .error .typeError
  else .error .valueError

/-- `p_sat_T` (tools/fluid_properties/functions.py 167-173) -/
def pSatT (T : K) (fd : FluidData K) : PyRes K :=
  if numFluids fd = 1 then match pureFluid fd with
    | some e => .ok (e.w.pSat T)
    | none => .error .typeError
  else .error .valueError

/-- `dT_sat_dp` (tools/fluid_properties/functions.py 185-189) -/
def dTSatDp (p : K) (fd : FluidData K) : PyRes K :=
  match tSatP (p + 1 / 100) fd with
  | .error e => .error e
  | .ok upper => match tSatP (p - 1 / 100) fd with
    | .error e => .error e
    | .ok lower => .ok ((upper - lower) / (2 * (1 / 100)))

end Tespy
