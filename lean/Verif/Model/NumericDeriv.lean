import Mathlib.Algebra.Order.Field.Basic
import Verif.Model.Py
/-
Numerical differentiation, `_numeric_deriv` (tools/helpers.py 382-470).
-/
namespace Tespy
variable {K : Type _} [Field K] [LinearOrder K]

/-- The connection which is passed to `_numeric_deriv`: the identities of its
containers. `mVar`, `pVar`, `hVar` are the identities of the data containers `m`,
`p`, `h` (shared within a branch after the presolve), `fluidId` of the fluid
composition, `isVar` is `fluid.is_var`, `id` identifies the connection (tools/helpers.py 422-459). -/
structure NConn where
  id : ℕ
  mVar : ℕ
  pVar : ℕ
  hVar : ℕ
  fluidId : ℕ
  isVar : List String

/-- The mutable state a residual function may read: values of the component
variables, SI values of the property containers, mass fractions stored in the
fluid compositions, and the mass fractions cached in `fluid_data` of each
connection (`build_fluid_data`, connections/connection.py 712-718). -/
structure NState (K : Type _) where
  comp : String → K
  prop : ℕ → K
  fluid : ℕ → String → K
  data : ℕ → String → K

/-- Set a value of a component parameter (tools/helpers.py 408-420). -/
def NState.setComp (s : NState K) (name : String) (v : K) : NState K :=
  { s with comp := fun n => if n = name then v else s.comp n }

/-- Set `val_SI` of a property container (tools/helpers.py 446-459). -/
def NState.setProp (s : NState K) (id : ℕ) (v : K) : NState K :=
  { s with prop := fun n => if n = id then v else s.prop n }

/-- Set a mass fraction in a fluid composition (tools/helpers.py 422-445). -/
def NState.setFluid (s : NState K) (id : ℕ) (name : String) (v : K) : NState K :=
  { s with fluid := fun n f => if n = id ∧ f = name then v else s.fluid n f }

/-- `Connection.build_fluid_data` (connections/connection.py 712-718). The keys of
`fluid_data` and the wrappers are not modelled. -/
def NState.build (s : NState K) (c : NConn) : NState K :=
  { s with data := fun n f => if n = c.id then s.fluid c.fluidId f else s.data n f }

/-- What to differentiate for: a component parameter with its step width `d`, or
a variable name of a connection (tools/helpers.py 382-425). -/
inductive DX (K : Type _)
  | comp (name : String) (d : K)
  | conn (c : NConn) (name : String)

/-- Lines 410-420: component variable. `none` as exception means success. -/
def derivComp (func : NState K → PyRes K) (name : String) (d : K) (s : NState K) :
    NState K × PyRes K :=
  let s1 := s.setComp name (s.comp name + d)
  match func s1 with
  | .error e => (s1, .error e)
  | .ok up =>
    let s2 := s1.setComp name (s1.comp name - 2 * d)
    match func s2 with
    | .error e => (s2, .error e)
    | .ok low =>
      if 2 * d = 0 then (s2, .error .zeroDivision)
      else (s2.setComp name (s2.comp name + d), .ok ((up - low) / (2 * d)))

/-- Lines 422-444: mass fraction, `d = 1e-5`. -/
def derivFluid (func : NState K → PyRes K) (c : NConn) (name : String) (s : NState K) :
    NState K × PyRes K :=
  let d : K := 1 / 100000
  let val := s.fluid c.fluidId name
  let s1 := if val + d ≤ 1 then s.setFluid c.fluidId name (val + d)
            else s.setFluid c.fluidId name 1
  let s1 := s1.build c
  match func s1 with
  | .error e => (s1, .error e)
  | .ok up =>
    let v1 := s1.fluid c.fluidId name
    let s2 := if 0 ≤ v1 - 2 * d then s1.setFluid c.fluidId name (v1 - 2 * d)
              else s1.setFluid c.fluidId name 0
    let s2 := s2.build c
    match func s2 with
    | .error e => (s2, .error e)
    | .ok low => ((s2.setFluid c.fluidId name val).build c, .ok ((up - low) / (2 * d)))

/-- Lines 446-459: mass flow, pressure or enthalpy with step width `d`. -/
def derivProp (func : NState K → PyRes K) (id : ℕ) (d : K) (s : NState K) :
    NState K × PyRes K :=
  let s1 := s.setProp id (s.prop id + d)
  match func s1 with
  | .error e => (s1, .error e)
  | .ok up =>
    let s2 := s1.setProp id (s1.prop id - 2 * d)
    match func s2 with
    | .error e => (s2, .error e)
    | .ok low => (s2.setProp id (s2.prop id + d), .ok ((up - low) / (2 * d)))

/-- `_numeric_deriv` (tools/helpers.py 382-470): state after the call and the
derivative or the exception. -/
def numericDeriv (func : NState K → PyRes K) (dx : DX K) (s : NState K) : NState K × PyRes K :=
  match dx with
  | .comp name d => derivComp func name d s
  | .conn c name =>
    if name ∈ c.isVar then derivFluid func c name s
    else if name = "m" then derivProp func c.mVar (1 / 10000) s
    else if name = "p" then derivProp func c.pVar (1 / 10) s
    else if name = "h" then derivProp func c.hVar (1 / 10) s
    else (s, .error .valueError)

end Tespy
