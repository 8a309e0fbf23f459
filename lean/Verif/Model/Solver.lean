import Mathlib.Algebra.Order.Field.Basic
import Mathlib.Algebra.BigOperators.Group.List.Basic
import Mathlib.Logic.Function.Basic
import Verif.Model.Py
/-
The solver: variable space, equation counts, rows of the equation system, solver loop and
update of the variables (networks/network.py 1208-1225, 2014-2121, 2228-2457).
-/
namespace Tespy

/-! ### variable space -/

/-- Property container (`FluidProperties` of `m`, `p` or `h`) as far as the variable
space is concerned (tools/data_containers.py 445-504). -/
structure VBox where
  isSet : Bool
  solved : Bool
  isVar : Bool
  col : Option ℕ
  deriving DecidableEq

/-- Owner of a column, `self.variables_dict[i]`
(networks/network.py 1118-1124, 1209-1225, components/component.py 345-349). -/
inductive Owner
  /-- property container `b` -/
  | prop (b : ℕ)
  /-- mass fraction of a fluid in the fluid container `b` -/
  | fluid (b : ℕ) (name : String)
  /-- component variable -/
  | comp (id : ℕ) (name : String)
  deriving DecidableEq

/-- `dict` is `variables_dict` (keys are the positions: every new entry gets the key
`num_conn_vars`, the number of entries), `connVars` is `_conn_variables` (networks/network.py 850-896). -/
structure VSpace where
  box : ℕ → VBox
  dict : List Owner
  connVars : List ℕ
  fluidCol : ℕ → String → Option ℕ
  compCol : ℕ → String → Option ℕ

/-- Columns of the variable mass fractions of one fluid container, last lines of
`presolve_fluid_topology` (networks/network.py 1118-1124). -/
def assignFluid (b : ℕ) : List String → VSpace → VSpace
  | [], s => s
  | f :: fs, s =>
    assignFluid b fs
      { s with
        fluidCol := fun c g => if c = b ∧ g = f then some s.dict.length else s.fluidCol c g
        dict := s.dict ++ [.fluid b f] }

/-- All fluid branches: the shared container and its variable fluids (networks/network.py 1112-1124). -/
def assignFluids : List (ℕ × List String) → VSpace → VSpace
  | [], s => s
  | b :: bs, s => assignFluids bs (assignFluid b.1 b.2 s)

/-- One container in `_assign_variable_space` (networks/network.py 1209-1225). -/
def assignProp (s : VSpace) (b : ℕ) : VSpace :=
  if (s.box b).isSet = false ∧ b ∉ s.connVars then
    if (s.box b).solved = false then
      { s with
        box := Function.update s.box b { s.box b with isVar := true, col := some s.dict.length }
        dict := s.dict ++ [.prop b]
        connVars := s.connVars ++ [b] }
    else
      { s with box := Function.update s.box b { s.box b with isVar := false, solved := false } }
  else if (s.box b).isSet then
    { s with box := Function.update s.box b { s.box b with isVar := false } }
  else s

/-- All connections: the containers `m`, `p`, `h` of the connections in the order of the
table (networks/network.py 1239-1288). Simplified: `simplify_specifications` of a
connection runs just before its containers are visited; it only touches the containers
of that connection, so its effect (`solved`) is taken to be there from the start. -/
def assignProps : List ℕ → VSpace → VSpace
  | [], s => s
  | b :: bs, s => assignProps bs (assignProp s b)

/-- Variables of one component: `preprocess` and the following loop
(components/component.py 345-349, networks/network.py 1361-1376). -/
def assignComp (id : ℕ) : List String → VSpace → VSpace
  | [], s => s
  | v :: vs, s =>
    assignComp id vs
      { s with
        compCol := fun c g => if c = id ∧ g = v then some s.dict.length else s.compCol c g
        dict := s.dict ++ [.comp id v] }

/-- All components with their variables (networks/network.py 1307-1376). -/
def assignComps : List (ℕ × List String) → VSpace → VSpace
  | [], s => s
  | c :: cs, s => assignComps cs (assignComp c.1 c.2 s)

/-- Variable space of a calculation (networks/network.py 850-896): fluids, connections,
components. `props` are the visited containers. -/
def variableSpace (box : ℕ → VBox) (fluids : List (ℕ × List String)) (props : List ℕ)
    (comps : List (ℕ × List String)) : VSpace :=
  assignComps comps (assignProps props (assignFluids fluids ⟨box, [], [], fun _ _ => none, fun _ _ => none⟩))

/-- The column an owner finds in its container (`J_col`) (networks/network.py 1118-1124, 1209-1225). -/
def VSpace.colOf (s : VSpace) : Owner → Option ℕ
  | .prop b => (s.box b).col
  | .fluid b f => s.fluidCol b f
  | .comp id v => s.compCol id v

/-! ### determination -/

/-- Result of `solve_determination`: iterate, or an error which names the problem (networks/network.py 2070-2121). -/
inductive Determination | iterate | tooMany | notEnough
  deriving DecidableEq

/-- `solve_determination` (networks/network.py 2070-2121). -/
def determination (compEq connEq busEq udeEq compVars connVars : ℕ) : Determination :=
  let n := compEq + connEq + busEq + udeEq
  let vars := connVars + compVars
  if n > vars then .tooMany else if n < vars then .notEnough else .iterate

/-! ### rows -/

/-- An object with equations: number of equations and whether its jacobian dictionary has
entries (networks/network.py 2389-2438). -/
structure EqObj where
  numEq : ℕ
  jacEmpty : Bool

/-- First rows of the objects of `solve_components` and `solve_connections`
(networks/network.py 2393-2405, 2411-2423): `sum_eq` grows only if the jacobian has
entries. -/
def rowStarts : ℕ → List EqObj → List ℕ
  | _, [] => []
  | s, o :: os => s :: rowStarts (if o.jacEmpty then s else s + o.numEq) os

/-- Rows of the busses (networks/network.py 2444-2457): busses without given value are
skipped. `sum_eq` always grows. -/
def busRows : ℕ → List Bool → List ℕ
  | _, [] => []
  | s, isSet :: bs => if isSet then s :: busRows (s + 1) bs else busRows s bs

/-- Rows of the user defined equations (networks/network.py 2429-2438). -/
def udeRows : ℕ → List EqObj → List ℕ
  | _, [] => []
  | s, o :: os => s :: udeRows (if o.jacEmpty then s else s + 1) os

/-- All rows written in one iteration (networks/network.py 2315-2318). -/
def writtenRows (comps conns : List EqObj) (busses : List Bool) (udes : List EqObj) : List ℕ :=
  let nc := (comps.map EqObj.numEq).sum
  let nk := (conns.map EqObj.numEq).sum
  let nb := (busses.filter id).length
  let block (start : ℕ) (os : List EqObj) : List ℕ :=
    ((rowStarts start os).zip os).flatMap (fun p => List.range' p.1 p.2.numEq)
  block 0 comps ++ busRows (nc + nk) busses ++ block nc conns ++ udeRows (nc + nk + nb) udes

/-! ### solver loop -/

section loop
variable {K : Type} [Field K] [LinearOrder K]

/-- `a < b` for floats, `none` is nan (comparison of floats, networks/network.py 2037-2052). -/
def ltF (a : Option K) (b : K) : Bool :=
  match a with | some x => decide (x < b) | none => false

/-- `a >= b * 0.95` for floats. -/
def geF (a b : Option K) : Bool :=
  match a, b with | some x, some y => decide (x ≥ y * (19 / 20)) | _, _ => false

/-- Outcome of one `solve_control`: residual norm and `lin_dep` (networks/network.py 2028-2036). -/
structure Iter (K : Type) where
  norm : Option K
  linDep : Bool

/-- Result of `solve_loop`: number of iterations made, flags and history (networks/network.py 2014-2068). -/
structure LoopOut (K : Type) where
  iters : ℕ
  converged : Bool
  progress : Bool
  linDep : Bool
  deriving DecidableEq

/-- `residual_history[-2:] < ERR ** 0.5` for all entries; `i` is the present iteration (networks/network.py 2037-2042). -/
def lastTwo (out : ℕ → Iter K) (thr : K) (i : ℕ) : Bool :=
  if i = 0 then ltF (out 0).norm thr
  else ltF (out (i - 1)).norm thr && ltF (out i).norm thr

/-- Condition for the end of the iteration (networks/network.py 2037-2042). -/
def stopNow (out : ℕ → Iter K) (thr : K) (minIter : ℤ) (i : ℕ) : Bool :=
  (decide ((i : ℤ) ≥ minIter - 1) && lastTwo out thr i) || (out i).linDep

/-- Condition for missing progress (networks/network.py 2046-2052): the last four norms
compared with the third last one, and the last one with the one before. -/
def noProgress (out : ℕ → Iter K) (i : ℕ) : Bool :=
  decide (i > 40) &&
    ((geF (out (i - 3)).norm (out (i - 2)).norm && geF (out (i - 2)).norm (out (i - 2)).norm &&
      geF (out (i - 1)).norm (out (i - 2)).norm && geF (out i).norm (out (i - 2)).norm) &&
     geF (out i).norm (out (i - 1)).norm)

/-- `solve_loop` (networks/network.py 2014-2068) for arbitrary outcomes `out i` of the
iterations; `rem` is the number of iterations left. `converged` was set to False at the
beginning of `solve` (1919). Simplified: for `max_iter = 0` the flag `lin_dep` is not set
by the loop; the model reports False. -/
def solveLoop (out : ℕ → Iter K) (thr : K) (minIter : ℤ) : ℕ → ℕ → LoopOut K
  | 0, i => ⟨i, false, true, if i = 0 then false else (out (i - 1)).linDep⟩
  | rem + 1, i =>
    if stopNow out thr minIter i then ⟨i + 1, !(out i).linDep, true, (out i).linDep⟩
    else if noProgress out i then ⟨i + 1, false, false, (out i).linDep⟩
    else solveLoop out thr minIter rem (i + 1)

/-! ### update of the variables -/

/-- Values of all variables (networks/network.py 2247-2284). -/
structure VVals (K : Type) where
  prop : ℕ → K
  fluid : ℕ → String → K
  comp : ℕ → String → K

/-- What kind of property container: `m`/`h` are updated directly, `p` with relaxation (networks/network.py 2253-2264). -/
inductive PropKind | m | p | h
  deriving DecidableEq

/-- New pressure (networks/network.py 2260-2264). Python raises `ZeroDivisionError` for a
pressure of 0; the theorems assume positive pressures. -/
def updP (p inc : K) : K := p + inc / max 1 (-2 * inc / p)

/-- New mass fraction (networks/network.py 2266-2275). -/
def updFluid (ERR x inc : K) : K :=
  if x + inc < ERR then 0 else if x + inc > 1 - ERR then 1 else x + inc

/-- New component variable (networks/network.py 2277-2284). -/
def updComp (lo hi x inc : K) : K :=
  if x + inc < lo then lo else if x + inc > hi then hi else x + inc

/-- One pass of the loop in `update_variables` (networks/network.py 2255-2284); `col` is
the column stored in the container (`J_col`), `lo`, `hi` the bounds of component
variables. -/
def updateOne (ERR : K) (kind : ℕ → PropKind) (lo hi : ℕ → String → K) (inc : ℕ → K)
    (col : Owner → ℕ) (s : VVals K) : Owner → VVals K
  | .prop b =>
    let new := match kind b with
      | .p => updP (s.prop b) (inc (col (.prop b)))
      | _ => s.prop b + inc (col (.prop b))
    { s with prop := Function.update s.prop b new }
  | .fluid b f =>
    { s with fluid := fun c g => if c = b ∧ g = f then
        updFluid ERR (s.fluid b f) (inc (col (.fluid b f))) else s.fluid c g }
  | .comp i v =>
    { s with comp := fun c g => if c = i ∧ g = v then
        updComp (lo i v) (hi i v) (s.comp i v) (inc (col (.comp i v))) else s.comp c g }

/-- `update_variables` (networks/network.py 2247-2284). -/
def updateVariables (ERR : K) (kind : ℕ → PropKind) (lo hi : ℕ → String → K) (inc : ℕ → K)
    (col : Owner → ℕ) : List Owner → VVals K → VVals K
  | [], s => s
  | o :: os, s => updateVariables ERR kind lo hi inc col os (updateOne ERR kind lo hi inc col s o)

/-- Normalisation of a composition in `check_variable_bounds` (networks/network.py
2289-2292): the variable fractions are divided by the sum of all fractions; Python raises
`ZeroDivisionError` if that is 0. -/
def normalise (isVar : List String) (val : Dict String K) : PyRes (Dict String K) :=
  let total := (val.map Prod.snd).sum
  if isVar = [] then .ok val
  else if total = 0 then .error .zeroDivision
  else .ok (val.map (fun e => if e.1 ∈ isVar then (e.1, e.2 / total) else e))

/-- The loop over the connections visits a shared container once per connection (networks/network.py 2285-2292). -/
def normaliseTimes (isVar : List String) : ℕ → Dict String K → PyRes (Dict String K)
  | 0, val => .ok val
  | n + 1, val =>
    match normalise isVar val with
    | .error e => .error e
    | .ok val' => normaliseTimes isVar n val'

end loop
end Tespy
