import Verif.Model.HeatTransfer
import Verif.Model.Mixture
import Verif.Model.Eqs
/-!
Steam turbines with the Baumann rule (components/turbomachinery/steam_turbine.py).

Simplifications: real numbers without rounding; the fluid is pure and its properties are parameters
(`SteamFuns`); of `scipy.optimize.brentq` the evaluation at both ends and the check of the signs are modelled, the search
itself is a parameter (`core`).
-/
namespace Tespy

/-- Properties of the fluid: phase and vapour quality at pressure and enthalpy (`calc_phase`, `calc_x`), enthalpy after
isentropic change of state (`isentropic`), enthalpy of saturated vapour (`h_mix_pQ(p, 1)`, an exception above the critical
pressure: tools/fluid_properties/wrappers.py 199-201), and the search of `brentq`. -/
structure SteamFuns where
  phase : ℝ → ℝ → String
  x : ℝ → ℝ → ℝ
  isen : ℝ → ℝ → ℝ → ℝ
  hSat : ℝ → PyRes ℝ
  core : (ℝ → PyRes ℝ) → PyRes ℝ

/-- Pressures and enthalpies of inlet and outlet (components/turbomachinery/steam_turbine.py 180-263). -/
structure SteamState where
  pIn : ℝ
  hIn : ℝ
  pOut : ℝ
  hOut : ℝ

/-- turbine.py 253-267 `calc_eta_s` -/
noncomputable def steamEta (F : SteamFuns) (c : SteamState) : PyRes ℝ :=
  rdiv (c.hOut - c.hIn) (F.isen c.pIn c.hIn c.pOut - c.hIn)

/-- steam_turbine.py 217-241, the function `find_sat` -/
noncomputable def steamFindSat (F : SteamFuns) (c : SteamState) (eta frac : ℝ) : PyRes ℝ :=
  let psat := c.pIn - frac * (c.pIn - c.pOut)
  let hout := c.hIn - eta * (c.hIn - F.isen c.pIn c.hIn psat)
  match F.hSat psat with
  | .error e => .error e
  | .ok hsat => .ok (hout - hsat)

/-- `scipy.optimize.brentq(f, 1, 0)`: `ValueError` for values of the same sign at both ends
(called in components/turbomachinery/steam_turbine.py 243). -/
noncomputable def steamBrentq (F : SteamFuns) (f : ℝ → PyRes ℝ) : PyRes ℝ :=
  match f 1 with
  | .error e => .error e
  | .ok a =>
    match f 0 with
    | .error e => .error e
    | .ok b => if 0 < a * b then .error .valueError else F.core f

/-- steam_turbine.py 243-263, the residual of a wet expansion from superheated steam -/
noncomputable def steamWetRes (F : SteamFuns) (c : SteamState) (eta alpha : ℝ) : PyRes ℝ :=
  match steamBrentq F (steamFindSat F c eta) with
  | .error e => .error e
  | .ok frac =>
    let psat := c.pIn - frac * (c.pIn - c.pOut)
    match F.hSat psat with
    | .error e => .error e
    | .ok hsat =>
      let ym := 1 - (1 + F.x c.pOut c.hOut) / 2
      let etaS := eta * (1 - alpha * ym)
      let hout := hsat - etaS * (hsat - F.isen psat hsat c.pOut)
      .ok (c.hOut - hout)

/-- steam_turbine.py 180-263 `eta_s_wet_func` -/
noncomputable def steamRes (F : SteamFuns) (c : SteamState) (eta alpha : ℝ) : PyRes ℝ :=
  if F.phase c.pIn c.hIn = "tp" then
    match steamEta F c with
    | .error e => .error e
    | .ok e =>
      let ym := 1 - (F.x c.pIn c.hIn + F.x c.pOut c.hOut) / 2
      .ok (e - eta * (1 - alpha * ym))
  else if F.phase c.pOut c.hOut = "g" then
    match steamEta F c with
    | .error e => .error e
    | .ok e => .ok (e - eta)
  else steamWetRes F c eta alpha

/-- steam_turbine.py 166-178 `preprocess` with `single_fluid` (tools/fluid_properties/helpers.py 50-57): the check of the
fluid. -/
noncomputable def steamPreprocess (fd : FluidData ℝ) : PyRes String :=
  if 1 < numFluids fd then .error .valueError
  else match fd.find? detected with
    | none => .error .valueError
    | some e => .ok e.1

/-- steam_turbine.py 265-287 `eta_s_wet_deriv`: quantities with an entry if they are variables, in order (the values are
numeric derivatives). `increment_filter` is not modelled. -/
def steamDerivVars (i o : Port) : List Var := [.p i.p, .p o.p, .h i.h, .h o.h]

end Tespy
