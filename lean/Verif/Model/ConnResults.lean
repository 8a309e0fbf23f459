import Verif.Model.Units
import Verif.Model.MixInverse
import Verif.Model.Wrappers
import Verif.Model.NetworkAttr
/-!
Results of a connection: `Connection.calc_results` (connections/connection.py 903-963) and the starting values of the next
calculation.

Simplifications: numbers are rational, nan is `none`; the property library raises `ValueError` for nan inputs; density and
entropy are implemented by the wrapper; a relative deviation with respect to the enthalpy 0 is infinite (numpy), for Python
floats it would raise `ZeroDivisionError`.
-/
namespace Tespy

/-- Functions of the wrapper of a pure fluid used for the results (tools/fluid_properties/wrappers.py): those of
`PureFns`, quality, phase and saturation temperature. -/
structure ResFns extends PureFns ℚ where
  qPH : Wrapper ℚ → ℚ → ℚ → LibRes ℚ
  phasePH : Wrapper ℚ → ℚ → ℚ → LibRes String
  tSatP : Wrapper ℚ → ℚ → LibRes ℚ

/-- A connection: `val_SI`, `is_set`, `unit`, `val` and `val0` of its properties, phase, fluids and mixing rule
(connections/connection.py 903-963: the attributes read and written there). -/
structure RConn where
  si : FluidProp → Option ℚ
  isSet : FluidProp → Bool
  unit : FluidProp → String
  val : FluidProp → Option ℚ
  val0 : FluidProp → Option ℚ
  phase : Option String
  fd : FluidData ℚ
  rule : Option String

/-- `self.<prop>.val_SI = x` (connections/connection.py 915-953). -/
def RConn.put (c : RConn) (k : FluidProp) (x : Option ℚ) : RConn := { c with si := Function.update c.si k x }

/-- A function of pressure and enthalpy of the connection (connections/connection.py 915-953). -/
def RConn.ph {α : Type} (c : RConn) (f : ℚ → ℚ → PyRes α) : PyRes α :=
  match c.si .p, c.si .h with
  | some p, some h => f p h
  | _, _ => .error .valueError

/-- Exceptions of wrappers; `NotImplementedError` is caught by the callers and gives nan (connections/connection.py 835-839,
857-861, 1138-1142). -/
def orNan {α : Type} : LibRes α → PyRes (Option α)
  | .ok a => .ok (some a)
  | .error .notImplemented => .ok none
  | .error .value => .error .valueError
  | .error .type => .error .typeError

/-- `calc_T` (connections/connection.py 738-741), the starting value is the present temperature. -/
def RConn.calcT (r : ResFns) (water : Option String) (c : RConn) : PyRes ℚ :=
  c.ph (fun p h => tMixPH r.toPureFns water c.rule p h c.fd (c.si .T))

/-- `calc_x`, `Q_mix_ph` (connections/connection.py 835-839, functions.py 150-156) -/
def RConn.calcX (r : ResFns) (c : RConn) : PyRes (Option ℚ) :=
  c.ph (fun p h => if numFluids c.fd = 1 then
    match pureFluid c.fd with
    | some e => orNan (r.qPH e.w p h)
    | none => .error .typeError
  else .error .valueError)

/-- `calc_phase`, `phase_mix_ph` (connections/connection.py 1138-1142, functions.py 158-164) -/
def RConn.calcPhase (r : ResFns) (c : RConn) : PyRes (Option String) :=
  c.ph (fun p h => if numFluids c.fd = 1 then
    match pureFluid c.fd with
    | some e => orNan (r.phasePH e.w p h)
    | none => .error .typeError
  else .error .valueError)

/-- `calc_Td_bp`, `T_sat_p` (connections/connection.py 857-861, functions.py 176-182) -/
def RConn.calcTd (r : ResFns) (water : Option String) (c : RConn) : PyRes (Option ℚ) :=
  match c.calcT r water with
  | .error e => .error e
  | .ok T => c.ph (fun p _ => if numFluids c.fd = 1 then
      match pureFluid c.fd with
      | some e => match orNan (r.tSatP e.w p) with
        | .error er => .error er
        | .ok t => .ok (t.map (T - ·))
      | none => .error .typeError
    else .error .valueError)

/-- The value of the temperature does not belong to the enthalpy (connections/connection.py 908-909): `ERR ** .5` is
0.001. -/
def infeasible (h' h : ℚ) : Bool :=
  decide (1 / 1000 < |h' - h|) && (decide (h = 0) || decide (1 / 1000 < |(h' - h) / h|))

/-- connections/connection.py 933-937 -/
def RConn.stepX (r : ResFns) (c : RConn) : RConn × Option PyErr :=
  if c.isSet .x then (c, none)
  else match c.calcX r with
    | .ok x => (c.put .x x, none)
    | .error .valueError => (c.put .x none, none)
    | .error e => (c, some e)

/-- connections/connection.py 939-942 -/
def RConn.stepPhase (r : ResFns) (c : RConn) : RConn × Option PyErr :=
  match c.calcPhase r with
  | .ok x => ({ c with phase := x }, none)
  | .error .valueError => ({ c with phase := none }, none)
  | .error e => (c, some e)

/-- connections/connection.py 944-948: the handler sets `x`, not `Td_bp`. -/
def RConn.stepTd (r : ResFns) (water : Option String) (c : RConn) : RConn × Option PyErr :=
  if c.isSet .Td_bp then (c, none)
  else match c.calcTd r water with
    | .ok t => (c.put .Td_bp t, none)
    | .error .valueError => (c.put .x none, none)
    | .error e => (c, some e)

/-- connections/connection.py 950-953: volume (without starting temperature), volumetric flow, entropy. -/
def RConn.stepVol (r : ResFns) (water : Option String) (c : RConn) : RConn × Option PyErr :=
  match c.ph (fun p h => vMixPH r.toPureFns water c.rule p h c.fd none) with
  | .error e => (c, some e)
  | .ok vol =>
    let c1 := (c.put .vol (some vol)).put .v ((c.si .m).map (vol * ·))
    match c1.ph (fun p h => sMixPH r.toPureFns water c.rule p h c.fd (c1.si .T)) with
    | .error e => (c1, some e)
    | .ok s => (c1.put .s (some s), none)

/-- connections/connection.py 955-958: values in the units of the user. -/
def convertVals : List FluidProp → RConn → RConn × Option PyErr
  | [], c => (c, none)
  | k :: ks, c => match c.si k with
    | none => match lookupUnit k (c.unit k) with
      | .error e => (c, some e)
      | .ok _ => convertVals ks { c with val := Function.update c.val k none }
    | some x => match convertFromSI k x (c.unit k) with
      | .error e => (c, some e)
      | .ok y => convertVals ks { c with val := Function.update c.val k (some y) }

/-- connections/connection.py 955-963 -/
def RConn.finish (c : RConn) : RConn × Option PyErr :=
  match convertVals fpdKeys c with
  | (c1, some e) => (c1, some e)
  | (c1, none) => ({ c1 with val0 := fun k => if k = .m ∨ k = .p ∨ k = .h then c1.val k else c1.val0 k }, none)

/-- one statement after the other (Python statement sequence, connections/connection.py 903-963). -/
def RConn.andThen (s : RConn × Option PyErr) (f : RConn → RConn × Option PyErr) : RConn × Option PyErr :=
  match s with
  | (c, some e) => (c, some e)
  | (c, none) => f c

/-- `Connection.calc_results` (connections/connection.py 903-963) -/
def RConn.calcResults (r : ResFns) (water : Option String) (c : RConn) : RConn × Option PyErr :=
  match c.calcT r water with
  | .error e => (c, some e)
  | .ok T =>
    let c1 := c.put .T (some T)
    if 1 < numFluids c.fd then
      match c1.ph (fun p h => match hMixPT water c.rule p T c.fd with
          | .error e => .error e
          | .ok h' => .ok (infeasible h' h)) with
      | .error e => (c1, some e)
      | .ok true => RConn.finish ((((c1.put .T none).put .vol none).put .v none).put .s none)
      | .ok false => match tempRange r.toPureFns c.fd with
        | .error e => (c1, some e)
        | .ok _ => RConn.andThen (c1.stepVol r water) RConn.finish
    else
      RConn.andThen (RConn.andThen (RConn.andThen (RConn.andThen (c1.stepX r) (RConn.stepPhase r)) (RConn.stepTd r water))
        (RConn.stepVol r water)) RConn.finish

/-- The next calculation: units of the network (networks/network.py 1151-1159), SI values of specified properties
(1173-1176) and starting values of the variables from the former results (1691-1698). -/
def RConn.nextStart (netUnit : FluidProp → String) (c : RConn) (k : FluidProp) : PyRes (Option ℚ) :=
  match (if c.isSet k then c.val k else c.val0 k) with
  | none => .ok none
  | some x => match convertToSI k x (netUnit k) with
    | .error e => .error e
    | .ok y => .ok (some y)

end Tespy
