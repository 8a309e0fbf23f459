import Verif.Model.Characteristics
import Verif.Model.Newton
/-
Energy flow busses (connections/bus.py), their component side (components/component.py
620-732) and their part in the network (networks/network.py 1296-1301, 2440-2457, 2503-2531).
-/
namespace Tespy
variable {K : Type} [Field K] [LinearOrder K]

/-- `base` of a component on a bus (connections/bus.py 392-399). -/
inductive BusBase | component | bus
  deriving DecidableEq, Repr

/-- Values passed to busses: `num` is a finite number, `str` a string, `other` an object that
is none of the others (connections/bus.py 223-254 and 330-406: the cases told apart there). -/
inductive BVal (K : Type)
  | num (x : K) | nan | none | bool (b : Bool) | str (s : String)
  | comp (i : ℕ) | char (c : CharLine K) | other

/-- A row of the table `comps` (connections/bus.py 180-189). The column `efficiency` is never
read. `pref` is `none` for nan. -/
structure BusRow (K : Type) where
  param : Option String
  pref : Option K
  char : CharLine K
  base : BusBase

/-- `Bus` (connections/bus.py 178-200). `pVal` is `none` for nan; `jac` is the dictionary
`jacobian`. -/
structure Bus (K : Type) where
  pVal : Option K
  pSet : Bool
  printout : Bool
  comps : Dict ℕ (BusRow K)
  jac : Dict ℕ K

/-- `CharLine(x=np.array([0, 3]), y=np.array([1, 1]) * v)` (connections/bus.py 193, 368-371) -/
def constChar (v : K) : CharLine K := ⟨[0, 3], [v, v], false⟩

/-- `Bus.__init__` without keyword arguments (connections/bus.py 178-197) -/
def Bus.new : Bus K := ⟨none, false, true, [], []⟩

/-- One keyword of `Bus.set_attr` (connections/bus.py 223-254). The bus is returned with the
exception. -/
def Bus.setKw (b : Bus K) (key : String) (v : BVal K) : Bus K × Option PyErr :=
  if key = "P" then
    match v with
    | .num x => ({ b with pVal := some x, pSet := true }, none)
    | .bool t => ({ b with pVal := some (if t then 1 else 0), pSet := true }, none)
    | .nan => ({ b with pSet := false }, none)
    | .none => ({ b with pSet := false }, none)
    | _ => (b, some .typeError)
  else if key = "printout" then
    match v with
    | .bool t => ({ b with printout := t }, none)
    | _ => (b, some .typeError)
  else (b, some .keyError)

/-- `Bus.set_attr` (connections/bus.py 202-254) -/
def Bus.setAttr (b : Bus K) : List (String × BVal K) → Bus K × Option PyErr
  | [] => (b, none)
  | (k, v) :: kws =>
    match b.setKw k v with
    | (b, none) => b.setAttr kws
    | (b, some e) => (b, some e)

/-- One entry of the dictionary of a component (connections/bus.py 348-399). Unknown keys are
ignored. -/
def BusRow.field (r : BusRow K) (key : String) (v : BVal K) : PyRes (BusRow K) :=
  if key = "param" then
    match v with
    | .str s => .ok { r with param := some s }
    | .none => .ok { r with param := none }
    | _ => .error .typeError
  else if key = "char" then
    match v with
    | .char c => .ok { r with char := c }
    | .num x => .ok { r with char := constChar x }
    | .bool t => .ok { r with char := constChar (if t then 1 else 0) }
    | _ => .error .typeError
  else if key = "P_ref" then
    match v with
    | .num x => .ok { r with pref := some x }
    | .bool t => .ok { r with pref := some (if t then 1 else 0) }
    | .nan => .ok { r with pref := none }
    | .none => .ok { r with pref := none }
    | _ => .error .typeError
  else if key = "base" then
    match v with
    | .str s =>
      if s = "bus" then .ok { r with base := .bus }
      else if s = "component" then .ok { r with base := .component }
      else .error .valueError
    | _ => .error .valueError
  else .ok r

/-- The loop over the entries of one dictionary (connections/bus.py 348-399): what was set
before an exception stays. -/
def BusRow.fields (r : BusRow K) : List (String × BVal K) → BusRow K × Option PyErr
  | [] => (r, none)
  | (k, v) :: kws =>
    match r.field k v with
    | .ok r => r.fields kws
    | .error e => (r, some e)

/-- the default row (connections/bus.py 336-338) -/
def BusRow.default : BusRow K := ⟨none, none, constChar 1, .component⟩

/-- One argument of `Bus.add_comps` (connections/bus.py 330-406); `none` is an argument that is
not a dictionary. -/
def Bus.addOne (b : Bus K) : Option (List (String × BVal K)) → Bus K × Option PyErr
  | none => (b, some .typeError)
  | some d =>
    match Dict.get? d "comp" with
    | some (.comp i) =>
      let r := BusRow.fields (BusRow.default (K := K)) d
      ({ b with comps := Dict.set b.comps i r.1 }, r.2)
    | _ => (b, some .typeError)

/-- `Bus.add_comps` (connections/bus.py 277-409) -/
def Bus.addComps (b : Bus K) : List (Option (List (String × BVal K))) → Bus K × Option PyErr
  | [] => (b, none)
  | c :: cs =>
    match b.addOne c with
    | (b, none) => b.addComps cs
    | (b, some e) => (b, some e)

/-- Python division: a zero denominator is an error here (numpy floats give inf or nan)
(Python division as used in tools/helpers.py 473-510). -/
def pyDiv (a b : K) : PyRes K := if b = 0 then .error .zeroDivision else .ok (a / b)

/-- `bus_char_evaluation` (tools/helpers.py 473-501) -/
def busCharEval (compVal : K) (char : CharLine K) (ref : K) (busVal : K) : PyRes K := do
  let l ← pyDiv busVal ref
  let c ← char.evaluate l
  let q ← pyDiv compVal c
  .ok (busVal - q)

/-- `bus_char_derivative` (tools/helpers.py 504-510); the component value is not used. -/
def busCharDeriv (char : CharLine K) (ref : K) (busVal : K) : PyRes K := do
  let lu ← pyDiv (busVal + 1 / 1000) ref
  let cu ← char.evaluate lu
  let qu ← pyDiv 1 cu
  let ll ← pyDiv (busVal - 1 / 1000) ref
  let cl ← char.evaluate ll
  let ql ← pyDiv 1 cl
  .ok (1 - (qu - ql) / (2 * (1 / 1000)))

/-- the arguments of the Newton iteration (components/component.py 643-657, defaults from
tools/helpers.py 513-516) -/
def busNewton (compVal : K) (char : CharLine K) (ref : K) : NewtonArgs K where
  f := busCharEval compVal char ref
  df := busCharDeriv char ref
  target := 0
  val0 := ref
  valmin := -1000000000000000
  valmax := 1000000000000000
  maxIter := 10
  tolRel := 1 / 1000000
  tolAbs := 1 / 1000000000000
  mode := .rel

/-- number of passes that suffice for every Newton iteration (`C08_newton_terminates`) -/
def busPasses : ℕ := 15

/-- `Component.calc_bus_expr` (components/component.py 620-658) for the component value -/
def calcBusExpr (compVal : K) (r : BusRow K) : PyRes K :=
  match r.pref with
  | none => .ok 1
  | some ref =>
    if ref = 0 then .ok 1
    else match r.base with
      | .component => .ok |compVal / ref|
      | .bus =>
        match newton (busNewton compVal r.char ref) busPasses with
        | some (.ok out) => .ok (out.x / ref)
        | some (.error e) => .error e
        | none => .error .recursionError

/-- `Component.calc_bus_efficiency` (components/component.py 660-692) -/
def calcBusEfficiency (compVal : K) (r : BusRow K) : PyRes K := do
  let e ← calcBusExpr compVal r
  r.char.evaluate e

/-- `Component.calc_bus_value` (components/component.py 694-732) -/
def calcBusValue (compVal : K) (r : BusRow K) : PyRes K := do
  let e ← calcBusExpr compVal r
  let c ← r.char.evaluate e
  match r.base with
  | .component => .ok (compVal * c)
  | .bus => pyDiv compVal c

/-- accumulation of one entry by `bus_deriv` (e.g. components/turbomachinery/base.py 223-225) -/
def jacSub (jac : Dict ℕ K) (c : ℕ) (x : K) : Dict ℕ K :=
  Dict.set jac c ((Dict.get? jac c).getD 0 - x)

/-- the entries of one component subtracted one after the other (components/turbomachinery/base.py 208-225). -/
def jacSubs (jac : Dict ℕ K) (l : List (ℕ × K)) : Dict ℕ K :=
  l.foldl (fun j e => jacSub j e.1 e.2) jac

/-- loop body of `Bus.solve` (connections/bus.py 424-426) -/
def busStep (val : ℕ → BusRow K → PyRes K) (der : ℕ → List (ℕ × K)) (a : K × Dict ℕ K)
    (c : ℕ × BusRow K) : PyRes (K × Dict ℕ K) :=
  match val c.1 c.2 with
  | .error e => .error e
  | .ok v => .ok (a.1 - v, jacSubs a.2 (der c.1))

/-- `Bus.solve` (connections/bus.py 422-426). `val i r` is the bus value of component `i`,
`der i` the derivatives of the bus value, with their columns, that its `bus_deriv` subtracts.
The result is the residual and the bus with the accumulated derivatives. -/
def Bus.solve (b : Bus K) (p : K) (val : ℕ → BusRow K → PyRes K) (der : ℕ → List (ℕ × K)) :
    PyRes (K × Dict ℕ K) :=
  b.comps.foldlM (busStep val der) (p, b.jac)

/-- `Bus.clear_jacobian` (connections/bus.py 428-430) -/
def Bus.clearJac (b : Bus K) : Bus K := { b with jac := b.jac.map (fun e => (e.1, 0)) }

/-- A row of the equation system: residual and the entries assigned to columns (networks/network.py 2449-2454). -/
structure BusEq (K : Type) where
  residual : K
  entries : Dict ℕ K

/-- `Network.solve_busses` (networks/network.py 2440-2457): the rows of the busses and the busses
afterwards. Assigning to a column that does not exist raises `IndexError`. A specified bus value
is a number (`pVal = none`, possible only for `P` set by other means, gives nan). -/
def solveBusses (numVars : ℕ) (val : ℕ → BusRow K → PyRes K) (der : ℕ → List (ℕ × K)) :
    List (Bus K) → PyRes (List (BusEq K) × List (Bus K))
  | [] => .ok ([], [])
  | b :: bs =>
    if b.pSet then
      match b.pVal with
      | none => .error .valueError
      | some p =>
        match b.solve p val der with
        | .error e => .error e
        | .ok rj =>
          if ∀ e ∈ rj.2, e.1 < numVars then
            match solveBusses numVars val der bs with
            | .error e => .error e
            | .ok out =>
              .ok (⟨rj.1, rj.2⟩ :: out.1, ({ b with jac := rj.2 }).clearJac :: out.2)
          else .error .indexError
    else
      match solveBusses numVars val der bs with
      | .error e => .error e
      | .ok out => .ok (out.1, b :: out.2)

/-- Number of bus equations (networks/network.py 1298-1300, 1657-1659). -/
def numBusEq (bs : List (Bus K)) : ℕ := (bs.filter (·.pSet)).length

/-- A row of the results of a bus: component value, bus value, efficiency, design value
(networks/network.py 2528-2529). -/
structure BusResult (K : Type) where
  comp : K
  bus : K
  eff : K
  design : Option K

/-- The reference value stored in design mode (networks/network.py 2519-2522). -/
def designValue (base : BusBase) (compVal busVal : K) : K :=
  match base with
  | .component => compVal
  | .bus => busVal

/-- One component of `Network.process_busses` (networks/network.py 2507-2529). -/
def processRow (design : Bool) (compVal : ℕ → Option String → PyRes K) (i : ℕ) (r : BusRow K) :
    PyRes (BusResult K × BusRow K) :=
  match compVal i r.param with
  | .error e => .error e
  | .ok c =>
    match calcBusValue c r with
    | .error e => .error e
    | .ok v =>
      match calcBusEfficiency c r with
      | .error e => .error e
      | .ok eff =>
        if design then
          .ok (⟨c, v, eff, some (designValue r.base c v)⟩,
            { r with pref := some (designValue r.base c v) })
        else .ok (⟨c, v, eff, r.pref⟩, r)

/-- The loop over the components of a bus (networks/network.py 2507-2529). -/
def processRows (design : Bool) (compVal : ℕ → Option String → PyRes K) :
    Dict ℕ (BusRow K) → PyRes (List (BusResult K) × Dict ℕ (BusRow K))
  | [] => .ok ([], [])
  | c :: cs =>
    match processRow design compVal c.1 c.2 with
    | .error e => .error e
    | .ok x =>
      match processRows design compVal cs with
      | .error e => .error e
      | .ok xs => .ok (x.1 :: xs.1, (c.1, x.2) :: xs.2)

/-- `Network.process_busses` for one bus (networks/network.py 2506-2531). -/
def processBus (design : Bool) (compVal : ℕ → Option String → PyRes K) (b : Bus K) :
    PyRes (List (BusResult K) × Bus K) :=
  match processRows design compVal b.comps with
  | .error e => .error e
  | .ok rows =>
    .ok (rows.1, { b with comps := rows.2, pVal := some ((rows.1.map (·.bus)).sum) })

/-- Design mode initialisation of a bus (networks/network.py 1301). -/
def Bus.resetRef (b : Bus K) : Bus K :=
  { b with comps := b.comps.map (fun c => (c.1, { c.2 with pref := none })) }

end Tespy
