import Verif.Model.Solver
/-
Checks of the variables in every iteration: `check_variable_bounds`, `check_connection_properties`
(networks/network.py 2283-2386), the bounds checks of the connections (connections/connection.py
965-1050) and `convergence_check` of the components (components/turbomachinery/compressor.py 567-588,
pump.py 409-440, turbine.py 435-460, components/combustion/base.py 1190-1276). All other components
inherit the empty `convergence_check` (components/component.py 847-853).
-/
namespace Tespy
variable {K : Type} [Field K] [LinearOrder K]

/-- SI values of the property containers and mass fractions of the fluid containers. Connections of
a branch share containers, hence containers have numbers
(networks/network.py 2328-2386: the values read and written there). -/
structure ChkState (K : Type) where
  val : PropKind → ℕ → K
  frac : ℕ → String → K

/-- A connection: its containers and `good_starting_values`, specifications used by the checks
(`Td_bp.is_set`, `Td_bp.val_SI`, `state`, `T.is_set`) (connections/connection.py 965-1050: the attributes read there). -/
structure ChkConn (K : Type) where
  box : PropKind → ℕ
  fid : ℕ
  good : Bool
  TdSet : Bool
  Td : K
  state : Option String
  TSet : Bool

/-- Property functions of a pure fluid with its limits (tools/fluid_properties/wrappers.py); an
error is a `ValueError`. -/
structure PureFluid (K : Type) where
  pMin : K
  pMax : K
  TMin : K
  TMax : K
  T_ph : K → K → PyRes K
  h_pT : K → K → PyRes K
  h_pQ : K → K → PyRes K

/-- What does not change during the iteration: which containers are variables, the fluids of a fluid
container and the variable ones among them, property functions and ranges. `single` is the pure
fluid of a connection or `none` for mixtures (tools/fluid_properties/helpers.py 50-57), `mixRange` the
enthalpies at the temperature limits of a mixture (connections/connection.py 1032-1040).
Simplification: every fluid of a container has a value (no `KeyError`). -/
structure ChkEnv (K : Type) where
  isVar : PropKind → ℕ → Bool
  fluids : ℕ → List String
  fvar : ℕ → List String
  single : ChkState K → ChkConn K → Option (PureFluid K)
  mixRange : ChkState K → ChkConn K → PyRes (K × K)
  range : PropKind → K × K

/-- A Python statement: new state and exception; changes before an exception stay
(Python statement sequence in networks/network.py 2283-2386). -/
abbrev ChkStep (K : Type) := ChkState K → ChkState K × Option PyErr

/-- one statement after the other (Python statement sequence in networks/network.py 2283-2386). -/
def ChkStep.andThen (a b : ChkStep K) : ChkStep K := fun s =>
  match a s with
  | (s1, none) => b s1
  | (s1, some e) => (s1, some e)

/-- The statement without effect: a branch of `if` which is absent, e.g. networks/network.py 2328-2386. -/
def ChkStep.skip : ChkStep K := fun s => (s, none)

/-- `for x in l: f(x)` (Python loop, networks/network.py 2283-2303). -/
def ChkStep.forEach {α : Type} (f : α → ChkStep K) : List α → ChkStep K
  | [] => ChkStep.skip
  | a :: l => (f a).andThen (ChkStep.forEach f l)

/-- `c.p.val_SI`, reading a value of a connection, e.g. connections/connection.py 965-978. -/
def ChkState.get (s : ChkState K) (c : ChkConn K) (k : PropKind) : K := s.val k (c.box k)

/-- `c.p.val_SI = v` (e.g. connections/connection.py 965-978). -/
def ChkState.put (s : ChkState K) (c : ChkConn K) (k : PropKind) (v : K) : ChkState K :=
  { s with val := fun k' i => if k' = k ∧ i = c.box k then v else s.val k' i }

/-- `c.fluid.val[f] = v` (components/combustion/base.py 1212-1246). -/
def ChkState.putFrac (s : ChkState K) (fid : ℕ) (f : String) (v : K) : ChkState K :=
  { s with frac := fun i g => if i = fid ∧ g = f then v else s.frac i g }

/-- `c.p.is_var`, e.g. networks/network.py 2338-2386. -/
def ChkEnv.var (E : ChkEnv K) (c : ChkConn K) (k : PropKind) : Bool := E.isVar k (c.box k)

/-! ### connections -/

/-- `Connection.check_pressure_bounds` (connections/connection.py 965-978). -/
def checkPressure (fl : PureFluid K) (c : ChkConn K) : ChkStep K := fun s =>
  if s.get c .p > fl.pMax then (s.put c .p fl.pMax, none)
  else if s.get c .p < fl.pMin then
    match fl.T_ph (s.get c .p) (s.get c .h) with
    | .ok _ => (s, none)
    | .error _ => (s.put c .p (fl.pMin + 10), none)
  else (s, none)

/-- Lower enthalpy limit (connections/connection.py 980-990). -/
def lowerEnthalpy (fl : PureFluid K) (p : K) : PyRes K :=
  match fl.h_pT p (fl.TMin + 1 / 10) with
  | .ok h => .ok h
  | .error _ => fl.h_pT p (fl.TMin * (105 / 100))

/-- Upper enthalpy limit (connections/connection.py 998-1006): the temperature is lowered by 1 %
until the property function accepts it; `none`: more than `fuel` attempts. -/
def upperEnthalpy (fl : PureFluid K) (p : K) : ℕ → K → Option (PyRes K)
  | 0, _ => none
  | fuel + 1, T =>
    match fl.h_pT p T with
    | .ok h => some (.ok h)
    | .error e => if T * (99 / 100) < fl.TMin then some (.error e) else upperEnthalpy fl p fuel (T * (99 / 100))

/-- `Connection.check_enthalpy_bounds` (connections/connection.py 980-1010). The exhaustion of `fuel`
is reported as `recursionError`; `upperEnthalpy_ends` shows that enough fuel exists. -/
def checkEnthalpy (fuel : ℕ) (fl : PureFluid K) (c : ChkConn K) : ChkStep K := fun s =>
  match lowerEnthalpy fl (s.get c .p) with
  | .error e => (s, some e)
  | .ok hmin =>
    if s.get c .h < hmin then
      if hmin < 0 then (s.put c .h (hmin * (9999 / 10000)), none)
      else (s.put c .h (hmin * (10001 / 10000)), none)
    else
      match upperEnthalpy fl (s.get c .p) fuel fl.TMax with
      | none => (s, some .recursionError)
      | some (.error e) => (s, some e)
      | some (.ok hmax) =>
        if s.get c .h > hmax then (s.put c .h (hmax * (9999 / 10000)), none) else (s, none)

/-- `Connection.check_two_phase_bounds` (connections/connection.py 1012-1023). -/
def checkTwoPhase (fl : PureFluid K) (c : ChkConn K) : ChkStep K := fun s =>
  if c.Td > 0 ∨ c.state = some "g" then
    match fl.h_pQ (s.get c .p) 1 with
    | .error e => (s, some e)
    | .ok h => if s.get c .h < h then (s.put c .h (h * (101 / 100)), none) else (s, none)
  else if c.Td < 0 ∨ c.state = some "l" then
    match fl.h_pQ (s.get c .p) 0 with
    | .error e => (s, some e)
    | .ok h => if s.get c .h > h then (s.put c .h (h * (99 / 100)), none) else (s, none)
  else (s, none)

/-- `Connection.check_temperature_bounds` (connections/connection.py 1025-1050). -/
def checkTemperature (E : ChkEnv K) (c : ChkConn K) : ChkStep K := fun s =>
  match E.mixRange s c with
  | .error e => (s, some e)
  | .ok (hmin, hmax) =>
    let s1 := if s.get c .h < hmin then s.put c .h hmin else s
    if s1.get c .h > hmax then (s1.put c .h hmax, none) else (s1, none)

/-- The range checks for mass flow, pressure and enthalpy (networks/network.py 2352-2386). The code
compares enthalpies with `<` and `>`; assigning a limit to a value which equals it changes nothing. -/
def clipRange (E : ChkEnv K) (c : ChkConn K) (k : PropKind) : ChkStep K := fun s =>
  if s.get c k ≤ (E.range k).1 then (s.put c k (E.range k).1, none)
  else if s.get c k ≥ (E.range k).2 then (s.put c k (E.range k).2, none)
  else (s, none)

/-- Pressure and enthalpy of a connection (networks/network.py 2338-2377). -/
def checkState (E : ChkEnv K) (fuel iter : ℕ) (c : ChkConn K) : ChkStep K := fun s =>
  match E.single s c with
  | some fl =>
    ChkStep.andThen (if E.var c .p then checkPressure fl c else ChkStep.skip)
      (if E.var c .h then
        ChkStep.andThen (checkEnthalpy fuel fl c)
          (if (c.TdSet ∨ c.state.isSome) ∧ iter < 3 then checkTwoPhase fl c else ChkStep.skip)
      else ChkStep.skip) s
  | none =>
    if iter < 4 ∧ c.good = false then
      ChkStep.andThen (if E.var c .p then clipRange E c .p else ChkStep.skip)
        (if E.var c .h then
          ChkStep.andThen (clipRange E c .h) (if c.TSet then checkTemperature E c else ChkStep.skip)
        else ChkStep.skip) s
    else (s, none)

/-- `Network.check_connection_properties` (networks/network.py 2328-2386). -/
def checkConnection (E : ChkEnv K) (fuel iter : ℕ) (c : ChkConn K) : ChkStep K :=
  (checkState E fuel iter c).andThen (if E.var c .m then clipRange E c .m else ChkStep.skip)

/-! ### components -/

/-- `if cond(s): c.k.val_SI = value(s)` for a variable
(the pattern of components/turbomachinery/compressor.py 576-588, pump.py 418-429 and turbine.py 444-460). -/
def adjust (E : ChkEnv K) (c : ChkConn K) (k : PropKind) (cond : ChkState K → Bool)
    (value : ChkState K → K) : ChkStep K := fun s =>
  if E.var c k ∧ cond s then (s.put c k (value s), none) else (s, none)

/-- `Compressor.convergence_check` (components/turbomachinery/compressor.py 576-588). -/
def compressorCheck (E : ChkEnv K) (i o : ChkConn K) : ChkStep K :=
  (adjust E o .p (fun s => s.get o .p < s.get i .p) (fun s => s.get i .p * (11 / 10))).andThen
  ((adjust E o .h (fun s => s.get o .h < s.get i .h) (fun s => s.get i .h * (11 / 10))).andThen
  ((adjust E i .p (fun s => s.get o .p < s.get i .p) (fun s => s.get o .p * (9 / 10))).andThen
   (adjust E i .h (fun s => s.get o .h < s.get i .h) (fun s => s.get o .h * (9 / 10)))))

/-- The part of the pump's check for pressures and enthalpies
(components/turbomachinery/pump.py 418-429). -/
def pumpOrder (E : ChkEnv K) (i o : ChkConn K) : ChkStep K :=
  (adjust E o .p (fun s => s.get o .p < s.get i .p) (fun s => s.get o .p * 2)).andThen
  ((adjust E i .p (fun s => s.get o .p < s.get i .p) (fun s => s.get o .p * (1 / 2))).andThen
  ((adjust E o .h (fun s => s.get o .h < s.get i .h) (fun s => s.get o .h * (11 / 10))).andThen
   (adjust E i .h (fun s => s.get o .h < s.get i .h) (fun s => s.get o .h * (9 / 10)))))

/-- The part for a specified `flow_char` with support points `x`; `vol` is the specific volume at the
inlet (components/turbomachinery/pump.py 431-440). -/
def pumpFlow (E : ChkEnv K) (i : ChkConn K) (vol : ChkState K → PyRes K) (x : List K) : ChkStep K := fun s =>
  match vol s with
  | .error e => (s, some e)
  | .ok v =>
    match pyGet x (-1) with
    | .error e => (s, some e)
    | .ok last =>
      if s.get i .m * v > last ∧ E.var i .m = true then
        if v = 0 then (s, some .zeroDivision) else (s.put i .m (last / v), none)
      else
        match pyGet x 1, pyGet x 0 with
        | .ok second, .ok first =>
          if s.get i .m * v < second ∧ E.var i .m = true then
            if v = 0 then (s, some .zeroDivision) else (s.put i .m (first / v), none)
          else (s, none)
        | _, _ => (s, some .indexError)

/-- `Pump.convergence_check` (components/turbomachinery/pump.py 418-440). -/
def pumpCheck (E : ChkEnv K) (i o : ChkConn K) (flow : Option ((ChkState K → PyRes K) × List K)) : ChkStep K :=
  (pumpOrder E i o).andThen
    (match flow with
     | none => ChkStep.skip
     | some (vol, x) => pumpFlow E i vol x)

/-- `Turbine.convergence_check` (components/turbomachinery/turbine.py 444-460). -/
def turbineCheck (E : ChkEnv K) (i o : ChkConn K) : ChkStep K :=
  (if i.good then ChkStep.skip else
    (adjust E i .p (fun s => s.get i .p ≤ 100000) (fun _ => 100000)).andThen
    ((adjust E i .h (fun s => s.get i .h < 1000000) (fun _ => 1000000)).andThen
     (adjust E o .h (fun s => s.get o .h < 500000) (fun _ => 500000)))).andThen
  ((adjust E o .h (fun s => s.get i .h ≤ s.get o .h) (fun s => s.get i .h * (9 / 10))).andThen
   (adjust E o .p (fun s => s.get i .p ≤ s.get o .p) (fun s => s.get i .p * (9 / 10))))

/-- Names of the gases and fuels and the air ratio of a combustion component
(components/combustion/base.py 1201-1276: the attributes read there). -/
structure CombFluids (K : Type) where
  o2 : String
  co2 : String
  h2o : String
  fuels : List String
  lamb : Option K
  lambSet : Bool

/-- Total mass flow into the combustion, after correcting negative values
(components/combustion/base.py 1203-1207). -/
def checkMass (E : ChkEnv K) : List (ChkConn K) → ChkState K → ChkState K × K
  | [], s => (s, 0)
  | i :: inl, s =>
    let s1 := if s.get i .m < 0 ∧ E.var i .m = true then s.put i .m (1 / 100) else s
    let r := checkMass E inl s1
    (r.1, s1.get i .m + r.2)

/-- `x > hi → 'high'`, then `x < lo → 'low'` (components/combustion/base.py 1213-1229) -/
def keepWithin (x hi high lo low : K) : K :=
  let x1 := if x > hi then high else x
  if x1 < lo then low else x1

/-- The new fraction of fluid `f` at the outlet (components/combustion/base.py 1212-1241), `m` is the
total mass flow; `none`: division by zero. -/
def combFrac (F : CombFluids K) (inl : List (ChkConn K)) (m : K) (s : ChkState K) (f : String) (x : K) : Option K :=
  if f = F.o2 then some (keepWithin x (1 / 4) (1 / 5) (1 / 1000) (1 / 20))
  else if f = F.co2 then some (keepWithin x (1 / 10) (75 / 1000) (1 / 1000) (1 / 50))
  else if f = F.h2o then some (keepWithin x (1 / 10) (75 / 1000) (1 / 1000) (1 / 50))
  else if f ∈ F.fuels then some (if x > 0 then 0 else x)
  else if m = 0 then none
  else
    let mf := (inl.map (fun i => s.frac i.fid f * s.get i .m)).sum
    some (if |x - mf / m| > 3 / 100 then mf / m else x)

/-- One pass of the loop over the variable fluids (components/combustion/base.py 1212-1241). -/
def combFluid (F : CombFluids K) (inl : List (ChkConn K)) (m : K) (o : ChkConn K) (f : String) : ChkStep K := fun s =>
  match combFrac F inl m s f (s.frac o.fid f) with
  | none => (s, some .zeroDivision)
  | some x => (s.putFrac o.fid f x, none)

/-- Normalisation (components/combustion/base.py 1243-1246, networks/network.py 2289-2292). -/
def normaliseFluids (E : ChkEnv K) (c : ChkConn K) : ChkStep K := fun s =>
  if E.fvar c.fid = [] then (s, none)
  else if ((E.fluids c.fid).map (s.frac c.fid)).sum = 0 then (s, some .zeroDivision)
  else ({ s with frac := fun i f =>
      if i = c.fid ∧ f ∈ E.fvar c.fid then s.frac i f / ((E.fluids c.fid).map (s.frac c.fid)).sum
      else s.frac i f }, none)

/-- The search for fuel and air inlet (components/combustion/base.py 1261-1273): `fuel_found` of the
last inlet, the fuel inlet found last and `air_tmp`. -/
def fuelSearch (E : ChkEnv K) (F : CombFluids K) (s : ChkState K) :
    List (ChkConn K) → Bool × Option (ChkConn K) × Option K → Bool × Option (ChkConn K) × Option K
  | [], r => r
  | i :: inl, r =>
    let r0 := (false, r.2)
    if i.good then fuelSearch E F s inl r0
    else
      let fuel := (F.fuels.map (s.frac i.fid)).sum
      let r1 := if fuel > 3 / 4 ∧ E.var i .m = true then (true, some i, r0.2.2) else r0
      let r2 := if fuel < 3 / 4 then (r1.1, r1.2.1, some (s.get i .m)) else r1
      fuelSearch E F s inl r2

/-- The additional check for the fuel mass flow (components/combustion/base.py 1259-1276). -/
def fuelGuess (E : ChkEnv K) (F : CombFluids K) (inl : List (ChkConn K)) : ChkStep K := fun s =>
  match F.lamb with
  | none => (s, none)
  | some l =>
    if l < 2 ∧ F.lambSet = false then
      match fuelSearch E F s inl (false, none, none) with
      | (true, some i, some air) => (s.put i .m (air / 25), none)
      | (true, _, _) => (s, some .nameError)
      | (false, _, _) => (s, none)
    else (s, none)

/-- `CombustionChamber.convergence_check` (components/combustion/base.py 1201-1276), also used by
combustion engines: `inl` are the inlets for air and fuel, `o` the flue gas outlet. -/
def combustionCheck (E : ChkEnv K) (F : CombFluids K) (inl : List (ChkConn K)) (o : ChkConn K) : ChkStep K := fun s =>
  let r := checkMass E inl s
  ((ChkStep.forEach (combFluid F inl r.2 o) (E.fvar o.fid)).andThen
  ((normaliseFluids E o).andThen
  ((adjust E o .m (fun s => s.get o .m < 0) (fun _ => 10)).andThen
  ((if o.good then ChkStep.skip else adjust E o .h (fun s => s.get o .h < 750000) (fun _ => 1000000)).andThen
   (fuelGuess E F inl))))) r.1

/-- The components with a check of their own
(classes with their own `convergence_check`: components/turbomachinery/compressor.py 576, pump.py 418, turbine.py 444, components/combustion/base.py 1201). -/
inductive ChkComp (K : Type)
  | compressor (i o : ChkConn K)
  | pump (i o : ChkConn K) (flow : Option ((ChkState K → PyRes K) × List K))
  | turbine (i o : ChkConn K)
  | combustion (F : CombFluids K) (inl : List (ChkConn K)) (o : ChkConn K)
  | other

/-- `convergence_check` of the class of a component, called in networks/network.py 2283-2303. -/
def ChkComp.check (E : ChkEnv K) : ChkComp K → ChkStep K
  | .compressor i o => compressorCheck E i o
  | .pump i o flow => pumpCheck E i o flow
  | .turbine i o => turbineCheck E i o
  | .combustion F inl o => combustionCheck E F inl o
  | .other => ChkStep.skip

/-- `Network.check_variable_bounds` (networks/network.py 2283-2303). -/
def checkBounds (E : ChkEnv K) (fuel iter : ℕ) (conns : List (ChkConn K)) (comps : List (ChkComp K)) : ChkStep K :=
  (ChkStep.forEach (fun c => (normaliseFluids E c).andThen (checkConnection E fuel iter c)) conns).andThen
    (if iter < 3 then
      (ChkStep.forEach (ChkComp.check E) comps).andThen (ChkStep.forEach (checkConnection E fuel iter) conns)
    else ChkStep.skip)

end Tespy
