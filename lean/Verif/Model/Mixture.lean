import Verif.Model.Py
import Mathlib.Algebra.Order.Field.Basic

/-
Mixture property functions: /repo/src/tespy/tools/fluid_properties/mixtures.py, helpers.py and the
dispatch in functions.py. The property functions of the pure fluids (CoolProp etc.) are
parameters. Temperature iterations (T_mix_ph, T_mix_ps) are in `Model.Newton`.
-/
namespace Tespy

/-- The property wrapper of a pure fluid (wrappers.py): molar mass, square root of the molar mass
and the functions used for mixtures. -/
structure Wrapper (K : Type) where
  M : K
  sqrtM : K
  pMin : K
  hPT : K → K → K
  sPT : K → K → K
  dPT : K → K → K
  viscPT : K → K → K
  hQT : K → K → K
  sQT : K → K → K
  dQT : K → K → K
  pSat : K → K
  tSat : K → K
  belowTcrit : K → Bool

/-- One entry of `fluid_data` (connections/connection.py 712-718). -/
structure FluidEntry (K : Type) where
  y : K          -- mass_fraction
  w : Wrapper K  -- wrapper

/-- `fluid_data` of a connection: fluid name to wrapper and mass fraction (connections/connection.py 712-718). -/
abbrev FluidData (K : Type) := Dict String (FluidEntry K)

section
variable {K : Type} [Field K] [LinearOrder K]

/-- division of Python floats (Python division, e.g. tools/fluid_properties/helpers.py 60-66). -/
def fdiv (a b : K) : PyRes K := if b = 0 then .error .zeroDivision else .ok (a / b)

/-- `ERR` (global_vars.py 12) -/
def ERR : K := 1 / 1000000

/-- `_is_larger_than_precision` (helpers.py 25-26) -/
def detected (e : String × FluidEntry K) : Bool := decide (ERR < e.2.y)

/-- `get_number_of_fluids` (helpers.py 40-41) -/
def numFluids (fd : FluidData K) : ℕ := (fd.filter detected).length

/-- `get_pure_fluid` (helpers.py 44-47) -/
def pureFluid (fd : FluidData K) : Option (FluidEntry K) := ((fd.filter detected).head?).map Prod.snd

/-- `get_molar_fractions` (helpers.py 60-66). Division by a molar mass of zero is not modelled. -/
def molarFractions (fd : FluidData K) : PyRes (Dict String K) :=
  let s := (fd.map fun e => e.2.y / e.2.w.M).sum
  if s = 0 then
    (if fd = [] then .ok [] else .error .zeroDivision)
  else .ok (fd.map fun e => (e.1, e.2.y / e.2.w.M / s))

/-- `calc_molar_mass_mixture` (helpers.py 101-102) -/
def molarMass (fd : FluidData K) : Dict String K → PyRes K
  | [] => .ok 0
  | (f, x) :: xs =>
    match Dict.getItem fd f with
    | .error e => .error e
    | .ok e =>
      match molarMass fd xs with
      | .error er => .error er
      | .ok m => .ok (x * e.w.M + m)

/-- Sum over the species above the precision, with the partial pressure from the molar
fractions: the loop shared by the ideal mixing functions (mixtures.py 28-35, 92-99, 138-143). -/
def sumPartial (g : FluidEntry K → K → K) (p : K) (xs : Dict String K) :
    FluidData K → PyRes K
  | [] => .ok 0
  | (f, e) :: fd =>
    if detected (f, e) then
      match Dict.getItem xs f with
      | .error er => .error er
      | .ok x =>
        match sumPartial g p xs fd with
        | .error er => .error er
        | .ok s => .ok (g e (p * x) + s)
    else sumPartial g p xs fd

/-- `h_mix_pT_ideal` (mixtures.py 25-35) -/
def hMixIdeal (p T : K) (fd : FluidData K) : PyRes K :=
  match molarFractions fd with
  | .error e => .error e
  | .ok xs => sumPartial (fun e pp => e.w.hPT pp T * e.y) p xs fd

/-- `s_mix_pT_ideal` (mixtures.py 89-99) -/
def sMixIdeal (p T : K) (fd : FluidData K) : PyRes K :=
  match molarFractions fd with
  | .error e => .error e
  | .ok xs => sumPartial (fun e pp => e.w.sPT pp T * e.y) p xs fd

/-- `v_mix_pT_ideal` (mixtures.py 135-145) -/
def vMixIdeal (p T : K) (fd : FluidData K) : PyRes K :=
  match molarFractions fd with
  | .error e => .error e
  | .ok xs =>
    match sumPartial (fun e pp => e.w.dPT pp T) p xs fd with
    | .error e => .error e
    | .ok d => fdiv 1 d

/-- `h_mix_pT_forced_gas` (mixtures.py 60-76) -/
def hForced (T : K) (f : String) (e : FluidEntry K) (pp : K) : K :=
  if f = "H2O" ∧ e.w.pMin ≤ pp then
    if T ≤ e.w.tSat pp then e.w.hQT 1 T * e.y else e.w.hPT pp T * e.y
  else e.w.hPT pp T * e.y

/-- Sum of `h_mix_pT_forced_gas`, mixtures.py 60-76. -/
def sumForced (T p : K) (xs : Dict String K) : FluidData K → PyRes K
  | [] => .ok 0
  | (f, e) :: fd =>
    if detected (f, e) then
      match Dict.getItem xs f with
      | .error er => .error er
      | .ok x =>
        match sumForced T p xs fd with
        | .error er => .error er
        | .ok s => .ok (hForced T f e (p * x) + s)
    else sumForced T p xs fd

/-- `h_mix_pT_forced_gas`, mixtures.py 60-76. -/
def hMixForced (p T : K) (fd : FluidData K) : PyRes K :=
  match molarFractions fd with
  | .error e => .error e
  | .ok xs => sumForced T p xs fd

/-- Sum over the species above the precision (mixtures.py 79-86, 124-132, 170-177, 226-233) -/
def sumDetected (g : FluidEntry K → K) (fd : FluidData K) : K :=
  ((fd.filter detected).map fun e => g e.2).sum

/-- `h_mix_pT_incompressible` (mixtures.py 79-86) -/
def hMixIncomp (p T : K) (fd : FluidData K) : K := sumDetected (fun e => e.w.hPT p T * e.y) fd

/-- `s_mix_pT_incompressible` (mixtures.py 124-132) -/
def sMixIncomp (p T : K) (fd : FluidData K) : K := sumDetected (fun e => e.w.sPT p T * e.y) fd

/-- `v_mix_pT_incompressible` (mixtures.py 170-177). Densities of zero are not modelled. -/
def vMixIncomp (p T : K) (fd : FluidData K) : K := sumDetected (fun e => 1 / e.w.dPT p T * e.y) fd

/-- `viscosity_mix_pT_incompressible` (mixtures.py 226-233) -/
def viscMixIncomp (p T : K) (fd : FluidData K) : K := sumDetected (fun e => e.w.viscPT p T * e.y) fd

/-- `viscosity_mix_pT_ideal` (mixtures.py 213-223) -/
def viscMixIdeal (p T : K) (fd : FluidData K) : PyRes K :=
  match molarFractions fd with
  | .error e => .error e
  | .ok xs =>
    match sumPartial (fun e x => x * e.w.sqrtM) 1 xs fd with
    | .error e => .error e
    | .ok b =>
      match sumPartial (fun e x => x * e.w.sqrtM * e.w.viscPT p T) 1 xs fd with
      | .error e => .error e
      | .ok a => fdiv a b

/-- Result of `cond_check` (mixtures.py 279-334). -/
structure CondRes (K : Type) where
  massGas : Dict String K
  molarGas : Dict String K
  massLiquid : K
  molarLiquid : K
  deriving DecidableEq

/-- the mass fractions of the gas (mixtures.py 326-332) -/
def gasMass (fd : FluidData K) (m : K) : Dict String K → PyRes (Dict String K)
  | [] => .ok []
  | (f, x) :: xs =>
    match Dict.getItem fd f with
    | .error e => .error e
    | .ok e =>
      match fdiv x m with
      | .error er => .error er
      | .ok q =>
        match gasMass fd m xs with
        | .error er => .error er
        | .ok r => .ok ((f, q * e.w.M) :: r)

/-- the condensing branch of `cond_check` (mixtures.py 312-332) -/
def condSplit (p pSat : K) (fd : FluidData K) (water : String) (e : FluidEntry K)
    (xs : Dict String K) (xw : K) : PyRes (CondRes K) :=
  match fdiv p pSat with
  | .error er => .error er
  | .ok r =>
    match fdiv (1 - xw) (r - 1) with
    | .error er => .error er
    | .ok gas =>
      if 1 - (xw - gas) = 0 then .error .zeroDivision
      else
        let molarGas := Dict.set (xs.map fun q => (q.1, q.2 / (1 - (xw - gas)))) water
          (gas / (1 - (xw - gas)))
        match molarMass fd xs with
        | .error er => .error er
        | .ok m =>
          match fdiv ((xw - gas) * e.w.M) m with
          | .error er => .error er
          | .ok massLiquid =>
            match molarMass fd molarGas with
            | .error er => .error er
            | .ok mg =>
              match gasMass fd mg molarGas with
              | .error er => .error er
              | .ok massGas => .ok ⟨massGas, molarGas, massLiquid, xw - gas⟩

/-- `cond_check` (mixtures.py 279-334) -/
def condCheck (p T : K) (fd : FluidData K) (water : String) : PyRes (CondRes K) :=
  match molarFractions fd with
  | .error e => .error e
  | .ok xs =>
    match Dict.getItem fd water with
    | .error e => .error e
    | .ok e =>
      match Dict.getItem xs water with
      | .error er => .error er
      | .ok xw =>
        if e.w.belowTcrit T ∧ e.w.pSat T < p * xw then condSplit p (e.w.pSat T) fd water e xs xw
        else .ok ⟨fd.map fun q => (q.1, q.2.y), xs, 0, 0⟩

/-- the loop over the species with condensed water (mixtures.py 46-55, 110-119): `liq`, `vap`
are the properties of saturated water, `g` the property of the other species -/
def sumCond (water : String) (liq vap : FluidEntry K → K) (g : FluidEntry K → K → K) (p : K)
    (c : CondRes K) : FluidData K → PyRes K
  | [] => .ok 0
  | (f, e) :: fd =>
    if detected (f, e) then
      match Dict.getItem c.massGas f with
      | .error er => .error er
      | .ok yg =>
        match Dict.getItem c.molarGas f with
        | .error er => .error er
        | .ok xg =>
          match sumCond water liq vap g p c fd with
          | .error er => .error er
          | .ok s =>
            if f = water then
              .ok (liq e * c.massLiquid + vap e * yg * (1 - c.massLiquid) + s)
            else .ok (g e (p * xg) * yg * (1 - c.massLiquid) + s)
    else sumCond water liq vap g p c fd

/-- `h_mix_pT_ideal_cond` (mixtures.py 38-57); `water` is the name of water in the mixture above
the precision, if any (`_water_in_mixture`, mixtures.py 274-276) -/
def hMixCond (water : Option String) (p T : K) (fd : FluidData K) : PyRes K :=
  match water with
  | none => hMixIdeal p T fd
  | some w =>
    match condCheck p T fd w with
    | .error e => .error e
    | .ok c =>
      if ¬ ERR < c.massLiquid then hMixIdeal p T fd
      else sumCond w (fun e => e.w.hQT 0 T) (fun e => e.w.hQT 1 T) (fun e pp => e.w.hPT pp T) p c fd

/-- `s_mix_pT_ideal_cond` (mixtures.py 102-121) -/
def sMixCond (water : Option String) (p T : K) (fd : FluidData K) : PyRes K :=
  match water with
  | none => sMixIdeal p T fd
  | some w =>
    match condCheck p T fd w with
    | .error e => .error e
    | .ok c =>
      if c.massLiquid = 0 then sMixIdeal p T fd
      else sumCond w (fun e => e.w.sQT 0 T) (fun e => e.w.sQT 1 T) (fun e pp => e.w.sPT pp T) p c fd

/-- the sum of the densities with condensed water (mixtures.py 156-164) -/
def sumCondD (water : String) (p T : K) (c : CondRes K) : FluidData K → PyRes K
  | [] => .ok 0
  | (f, e) :: fd =>
    if detected (f, e) then
      match sumCondD water p T c fd with
      | .error er => .error er
      | .ok s =>
        if f = water then
          .ok (e.w.dQT 0 T * c.massLiquid + e.w.dQT 1 T * (1 - c.massLiquid) + s)
        else
          match Dict.getItem c.molarGas f with
          | .error er => .error er
          | .ok xg => .ok (e.w.dPT (p * xg) T * (1 - c.massLiquid) + s)
    else sumCondD water p T c fd

/-- `v_mix_pT_ideal_cond` (mixtures.py 148-167) -/
def vMixCond (water : Option String) (p T : K) (fd : FluidData K) : PyRes K :=
  match water with
  | none => vMixIdeal p T fd
  | some w =>
    match condCheck p T fd w with
    | .error e => .error e
    | .ok c =>
      if c.massLiquid = 0 then vMixIdeal p T fd
      else
        match sumCondD w p T c fd with
        | .error e => .error e
        | .ok d => fdiv 1 d

/-- `h_mix_pT` (functions.py 125-131) with the table of mixing rules (mixtures.py 351-356) -/
def hMixPT (water : Option String) (rule : Option String) (p T : K) (fd : FluidData K) : PyRes K :=
  if numFluids fd = 1 then
    match pureFluid fd with
    | some e => .ok (e.w.hPT p T)
    | none => .error .typeError
  else
    match rule with
    | some "ideal" => hMixIdeal p T fd
    | some "ideal-cond" => hMixCond water p T fd
    | some "incompressible" => .ok (hMixIncomp p T fd)
    | some "forced-gas" => hMixForced p T fd
    | _ => .error .keyError

/-- `s_mix_pT` (functions.py 202-208, mixtures.py 359-363) -/
def sMixPT (water : Option String) (rule : Option String) (p T : K) (fd : FluidData K) : PyRes K :=
  if numFluids fd = 1 then
    match pureFluid fd with
    | some e => .ok (e.w.sPT p T)
    | none => .error .typeError
  else
    match rule with
    | some "ideal" => sMixIdeal p T fd
    | some "ideal-cond" => sMixCond water p T fd
    | some "incompressible" => .ok (sMixIncomp p T fd)
    | _ => .error .keyError

/-- `v_mix_pT` (functions.py 247-253, mixtures.py 366-370) -/
def vMixPT (water : Option String) (rule : Option String) (p T : K) (fd : FluidData K) : PyRes K :=
  if numFluids fd = 1 then
    match pureFluid fd with
    | some e => fdiv 1 (e.w.dPT p T)
    | none => .error .typeError
  else
    match rule with
    | some "ideal" => vMixIdeal p T fd
    | some "ideal-cond" => vMixCond water p T fd
    | some "incompressible" => .ok (vMixIncomp p T fd)
    | _ => .error .keyError

/-- `viscosity_mix_pT` (functions.py 265-271, mixtures.py 373-377) -/
def viscMixPT (rule : Option String) (p T : K) (fd : FluidData K) : PyRes K :=
  if numFluids fd = 1 then
    match pureFluid fd with
    | some e => .ok (e.w.viscPT p T)
    | none => .error .typeError
  else
    match rule with
    | some "ideal" => viscMixIdeal p T fd
    | some "ideal-cond" => viscMixIdeal p T fd
    | some "incompressible" => .ok (viscMixIncomp p T fd)
    | _ => .error .keyError

/-- `calc_physical_exergy` (functions.py 68-74): thermal and mechanical part -/
def physExergy (hPT sPT : K → K → PyRes K) (h s p pamb Tamb : K) : PyRes (K × K) :=
  match hPT p Tamb with
  | .error e => .error e
  | .ok hT0p =>
    match sPT p Tamb with
    | .error e => .error e
    | .ok sT0p =>
      match hPT pamb Tamb with
      | .error e => .error e
      | .ok h0 =>
        match sPT pamb Tamb with
        | .error e => .error e
        | .ok s0 =>
          .ok ((h - hT0p) - Tamb * (s - sT0p), (hT0p - h0) - Tamb * (sT0p - s0))

end

end Tespy
