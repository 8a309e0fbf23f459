import Verif.Model.Mixture
import Verif.Model.Newton
/-
Functions of mixtures which need the temperature: /repo/src/tespy/tools/fluid_properties/functions.py
and `inverse_temperature_mixture` (fluid_properties/helpers.py), and the equation for the volumetric
flow of a connection (connections/connection.py). Functions of the pure fluids are parameters.
-/
namespace Tespy

/-- Functions of the wrapper of a pure fluid which are not used for mixtures, and its range of
temperatures (`_T_min`, `_T_max`) (tools/fluid_properties/wrappers.py 123-283). -/
structure PureFns (K : Type) where
  tMin : Wrapper K → K
  tMax : Wrapper K → K
  tPH : Wrapper K → K → K → PyRes K
  tPS : Wrapper K → K → K → PyRes K
  sPH : Wrapper K → K → K → PyRes K
  dPH : Wrapper K → K → K → PyRes K
  viscPH : Wrapper K → K → K → PyRes K
  isentropic : Wrapper K → K → K → K → PyRes K

section
variable {K : Type} [Field K] [LinearOrder K]

/-- Fluids with a fraction larger than the precision (tools/fluid_properties/helpers.py 25-26, 91-98). -/
def presentFluids (fd : FluidData K) : List (FluidEntry K) := (fd.filter detected).map Prod.snd

/-- `get_mixture_temperature_range` (helpers.py 91-98): `max` of an empty list is a `ValueError`. -/
def tempRange (r : PureFns K) (fd : FluidData K) : PyRes (K × K) :=
  match presentFluids fd with
  | [] => .error .valueError
  | e :: es =>
    .ok (es.foldl (fun a x => max a (r.tMin x.w)) (r.tMin e.w) + 1 / 10,
      es.foldl (fun a x => min a (r.tMax x.w)) (r.tMax e.w) - 1 / 10)

/-- Starting value (helpers.py 72-73); `none` is `None` or NaN. -/
def invStart (lo hi : K) : Option K → K
  | none => (lo + hi) / 2
  | some t => if t = 0 then (lo + hi) / 2 else t

/-- Arguments of the Newton iteration (helpers.py 75-88, defaults from tools/helpers.py 513-516). -/
def invArgs (f : K → PyRes K) (target lo hi : K) (T0 : Option K) : NewtonArgs K where
  f := f
  df := centralDifference f (1 / 100)
  target := target
  val0 := invStart lo hi T0
  valmin := lo
  valmax := hi * 2
  maxIter := 10
  tolRel := ERR
  tolAbs := ERR ^ 2
  mode := .rel

/-- `newton_with_kwargs` returns the last value only. The iteration needs at most 13 passes
(`C08_newton_terminates`). -/
def newtonValue (a : NewtonArgs K) : PyRes K :=
  match newton a 13 with
  | none => .error .valueError
  | some (.error e) => .error e
  | some (.ok out) => .ok out.x

/-- `inverse_temperature_mixture` (helpers.py 69-88) -/
def inverseTemp (r : PureFns K) (f : K → PyRes K) (target : K) (fd : FluidData K)
    (T0 : Option K) : PyRes K :=
  match tempRange r fd with
  | .error e => .error e
  | .ok (lo, hi) => newtonValue (invArgs f target lo hi T0)

/-- The mixing rules which have an inverse, `T_MIX_PH_REVERSE` and `T_MIX_PS_REVERSE`
(mixtures.py 337-348): "forced-gas" is not one of them. -/
def reverseRule : Option String → Bool
  | some "ideal" => true
  | some "ideal-cond" => true
  | some "incompressible" => true
  | _ => false

/-- `T_mix_ph` (functions.py 88-98). For a mixture the tables of reverse and direct functions
contain the same functions. -/
def tMixPH (r : PureFns K) (water rule : Option String) (p h : K) (fd : FluidData K)
    (T0 : Option K) : PyRes K :=
  if numFluids fd = 1 then
    match pureFluid fd with
    | some e => r.tPH e.w p h
    | none => .error .typeError
  else if reverseRule rule then
    inverseTemp r (fun T => hMixPT water rule p T fd) h fd T0
  else .error .keyError

/-- `T_mix_ps` (functions.py 211-221) -/
def tMixPS (r : PureFns K) (water rule : Option String) (p s : K) (fd : FluidData K)
    (T0 : Option K) : PyRes K :=
  if numFluids fd = 1 then
    match pureFluid fd with
    | some e => r.tPS e.w p s
    | none => .error .typeError
  else if reverseRule rule then
    inverseTemp r (fun T => sMixPT water rule p T fd) s fd T0
  else .error .keyError

/-- `s_mix_ph` (functions.py 192-198) -/
def sMixPH (r : PureFns K) (water rule : Option String) (p h : K) (fd : FluidData K)
    (T0 : Option K) : PyRes K :=
  if numFluids fd = 1 then
    match pureFluid fd with
    | some e => r.sPH e.w p h
    | none => .error .typeError
  else
    match tMixPH r water rule p h fd T0 with
    | .error e => .error e
    | .ok T => sMixPT water rule p T fd

/-- `v_mix_ph` (functions.py 224-230) -/
def vMixPH (r : PureFns K) (water rule : Option String) (p h : K) (fd : FluidData K)
    (T0 : Option K) : PyRes K :=
  if numFluids fd = 1 then
    match pureFluid fd with
    | some e =>
      match r.dPH e.w p h with
      | .error er => .error er
      | .ok d => fdiv 1 d
    | none => .error .typeError
  else
    match tMixPH r water rule p h fd T0 with
    | .error e => .error e
    | .ok T => vMixPT water rule p T fd

/-- `viscosity_mix_ph` (functions.py 256-262) -/
def viscMixPH (r : PureFns K) (water rule : Option String) (p h : K) (fd : FluidData K)
    (T0 : Option K) : PyRes K :=
  if numFluids fd = 1 then
    match pureFluid fd with
    | some e => r.viscPH e.w p h
    | none => .error .typeError
  else
    match tMixPH r water rule p h fd T0 with
    | .error e => .error e
    | .ok T => viscMixPT rule p T fd

/-- `isentropic` (functions.py 27-34): the starting temperature is not passed on. -/
def isentropicMix (r : PureFns K) (water rule : Option String) (p1 h1 p2 : K)
    (fd : FluidData K) : PyRes K :=
  if numFluids fd = 1 then
    match pureFluid fd with
    | some e => r.isentropic e.w p1 h1 p2
    | none => .error .typeError
  else
    match sMixPH r water rule p1 h1 fd none with
    | .error e => .error e
    | .ok s1 =>
      match tMixPS r water rule p2 s1 fd none with
      | .error e => .error e
      | .ok T2 => hMixPT water rule p2 T2 fd

/-- Central difference of a function with starting value: the result of the first call is the
starting value of the second one (functions.py 101-112, 233-244). -/
def diffChained (g : K → Option K → PyRes K) (d x : K) (T0 : Option K) : PyRes K :=
  match g (x + d) T0 with
  | .error e => .error e
  | .ok upper =>
    match g (x - d) (some upper) with
    | .error e => .error e
    | .ok lower => .ok ((upper - lower) / (2 * d))

/-- `dT_mix_pdh` (functions.py 101-105) -/
def dTdh (r : PureFns K) (water rule : Option String) (p h : K) (fd : FluidData K)
    (T0 : Option K) : PyRes K :=
  diffChained (fun x t => tMixPH r water rule p x fd t) (1 / 10) h T0

/-- `dT_mix_dph` (functions.py 108-112) -/
def dTdp (r : PureFns K) (water rule : Option String) (p h : K) (fd : FluidData K)
    (T0 : Option K) : PyRes K :=
  diffChained (fun x t => tMixPH r water rule x h fd t) (1 / 10) p T0

/-- `dv_mix_dph` (functions.py 233-237): the starting value of the second call is a volume. -/
def dvdp (r : PureFns K) (water rule : Option String) (p h : K) (fd : FluidData K)
    (T0 : Option K) : PyRes K :=
  diffChained (fun x t => vMixPH r water rule x h fd t) (1 / 10) p T0

/-- `dv_mix_pdh` (functions.py 240-244) -/
def dvdh (r : PureFns K) (water rule : Option String) (p h : K) (fd : FluidData K)
    (T0 : Option K) : PyRes K :=
  diffChained (fun x t => vMixPH r water rule p x fd t) (1 / 10) h T0

/-- `fluid_data[fluid]["mass_fraction"] += d` (tools/fluid_properties/functions.py 115-122). -/
def addFraction (fd : FluidData K) (f : String) (d : K) : FluidData K :=
  fd.map fun e => if e.1 = f then (e.1, { e.2 with y := e.2.y + d }) else e

/-- `dT_mix_ph_dfluid` (functions.py 115-122): fluid data afterwards and result. The fluid is one
of the keys of the data. -/
def dTdfluid (r : PureFns K) (water rule : Option String) (p h : K) (f : String)
    (fd : FluidData K) (T0 : Option K) : FluidData K × PyRes K :=
  let fd1 := addFraction fd f (1 / 100000)
  match tMixPH r water rule p h fd1 T0 with
  | .error e => (fd1, .error e)
  | .ok upper =>
    let fd2 := addFraction fd1 f (-(2 / 100000))
    match tMixPH r water rule p h fd2 (some upper) with
    | .error e => (fd2, .error e)
    | .ok lower => (addFraction fd2 f (1 / 100000), .ok ((upper - lower) / (2 * (1 / 100000))))

/-- A connection with specified volumetric flow: the variables, which of them are variable, the
temperature reached last (`T.val_SI`) and the composition (connections/connection.py 789-806). -/
structure VolConn (K : Type) where
  m : K
  p : K
  h : K
  T0 : Option K
  mVar : Bool
  pVar : Bool
  hVar : Bool
  rule : Option String
  fluidData : FluidData K

/-- `Connection.v_func` (connection.py 789-798): residual for the given flow `v`. Exceptions of
`calc_vol` other than those of the mixture functions are not modelled. -/
def volRes (r : PureFns K) (water : Option String) (c : VolConn K) (v : K) : PyRes K :=
  match vMixPH r water c.rule c.p c.h c.fluidData c.T0 with
  | .error e => .error e
  | .ok vol => .ok (vol * c.m - v)

/-- One derivative of `v_deriv`: nothing is assigned for a fixed variable (connections/connection.py 800-806). -/
def volEntry (isVar : Bool) (d : PyRes K) : PyRes (Option K) :=
  if isVar then
    match d with
    | .error e => .error e
    | .ok x => .ok (some x)
  else .ok none

/-- `Connection.v_deriv` (connection.py 800-806): derivatives to mass flow, pressure and enthalpy;
the mixing rule and the starting value are not passed to the last two. -/
def volDeriv (r : PureFns K) (water : Option String) (c : VolConn K) :
    PyRes (Option K × Option K × Option K) :=
  match volEntry c.mVar (vMixPH r water c.rule c.p c.h c.fluidData c.T0) with
  | .error e => .error e
  | .ok dm =>
    match volEntry c.pVar (dvdp r water none c.p c.h c.fluidData none) with
    | .error e => .error e
    | .ok dp =>
      match volEntry c.hVar (dvdh r water none c.p c.h c.fluidData none) with
      | .error e => .error e
      | .ok dh => .ok (dm, dp.map (· * c.m), dh.map (· * c.m))

end
end Tespy
