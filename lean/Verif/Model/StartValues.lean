import Verif.Model.Solver
/-
Starting values: `init_set_properties`, `init_properties`, `init_val0`, `init_precalc_properties`,
`init_conn_params_from_path` (networks/network.py 1142-1176, 1530-1562, 1661-1832), results of a
calculation (connections/connection.py 952-962), generic starting values of the components.
-/
namespace Tespy
variable {K : Type} [Field K] [LinearOrder K]

/-- A statement changing a state; changes before an exception stay
(Python statement sequence, networks/network.py 1661-1738). -/
abbrev PyStep (S : Type) := S → S × Option PyErr

/-- One statement after the other, networks/network.py 1661-1738. -/
def PyStep.andThen {S : Type} (a b : PyStep S) : PyStep S := fun s =>
  match a s with
  | (s1, none) => b s1
  | (s1, some e) => (s1, some e)

/-- The statement without effect, e.g. an absent `else` in networks/network.py 1661-1738. -/
def PyStep.skip {S : Type} : PyStep S := fun s => (s, none)

/-- `for x in l: f(x)` (Python loop, networks/network.py 1680-1735). -/
def PyStep.forEach {S α : Type} (f : α → PyStep S) : List α → PyStep S
  | [] => PyStep.skip
  | a :: l => (f a).andThen (PyStep.forEach f l)

/-- Container of mass flow, pressure or enthalpy (tools/data_containers.py 474-503), `none` is nan. -/
structure StartBox (K : Type) where
  val : Option K
  val0 : Option K
  si : Option K
  unit : String
  isSet : Bool
  isVar : Bool
  deriving DecidableEq

/-- Containers (shared within branches) and `good_starting_values` of the connections
(networks/network.py 1661-1738: the values read and written there). -/
structure StartState (K : Type) where
  box : PropKind → ℕ → StartBox K
  good : ℕ → Bool

/-- Generic starting value of a component: a number or the enthalpy at given vapour fraction or
temperature (results of `initialise_source` and `initialise_target`, networks/network.py 1812-1825). -/
inductive StartHint (K : Type)
  | number (v : K)
  | sat (q : K)
  | temp (T : K)

/-- A connection: number, containers, generic values of source and target component, set references
(container, factor, delta in SI units), specified vapour fraction, temperature, temperature difference
to boiling point (SI) and phase. References of temperature and volumetric flow only change the
temperature and the volumetric flow of the connection and are left out
(networks/network.py 1661-1832: the attributes read there). -/
structure StartConn (K : Type) where
  id : ℕ
  box : PropKind → ℕ
  src : PropKind → StartHint K
  tgt : PropKind → StartHint K
  ref : PropKind → Option (ℕ × K × K)
  x : Option K
  T : Option K
  Td : Option K
  state : Option String

/-- Unit factors, units of the network, random numbers in [0, 1) and property functions of the fluid of a
connection; `file` are the rows of the `init_path` file (networks/network.py 1530-1562, 1661-1832). -/
structure StartEnv (K : Type) where
  factor : PropKind → String → K
  netUnit : PropKind → String
  rand : ℕ → K
  hpQ : ℕ → Option K → K → PyRes K
  hpT : ℕ → Option K → K → PyRes K
  file : ℕ → Option (PropKind → Option K × String)

/-- Assignment to a container, networks/network.py 1695-1735. -/
def StartState.put (s : StartState K) (k : PropKind) (i : ℕ) (b : StartBox K) : StartState K :=
  { s with box := fun k' i' => if k' = k ∧ i' = i then b else s.box k' i' }

/-- `c.k.val_SI = v` (networks/network.py 1695-1735). -/
def StartState.putSI (s : StartState K) (k : PropKind) (i : ℕ) (v : Option K) : StartState K :=
  s.put k i { s.box k i with si := v }

/-- Value of `initialise_source` or `initialise_target` with the pressure `p`
(networks/network.py 1812-1825, classes cited at `sourceHint`). -/
def StartHint.eval (E : StartEnv K) (id : ℕ) (p : Option K) : StartHint K → PyRes K
  | .number v => .ok v
  | .sat q => E.hpQ id p q
  | .temp T => E.hpT id p T

/-- Combination of the values of source and target (networks/network.py 1812-1825); never used for mass
flows. -/
def genericStart (k : PropKind) (a b : K) : K :=
  if a = 0 ∧ b = 0 then (match k with
    | .p => 100000
    | _ => 1000000)
  else if a = 0 then b
  else if b = 0 then a
  else (a + b) / 2

/-- `Network.init_val0` (networks/network.py 1790-1832). -/
def initVal0 (E : StartEnv K) (c : StartConn K) (k : PropKind) : PyStep (StartState K) := fun s =>
  match (s.box k (c.box k)).val0 with
  | some _ => (s, none)
  | none =>
    if k = .m then (s.put k (c.box k) { s.box k (c.box k) with val0 := some (E.rand c.id + 1) }, none)
    else
      match (c.src k).eval E c.id (s.box .p (c.box .p)).si with
      | .error e => (s, some e)
      | .ok a =>
        match (c.tgt k).eval E c.id (s.box .p (c.box .p)).si with
        | .error e => (s, some e)
        | .ok b =>
          (s.put k (c.box k) { s.box k (c.box k) with val0 := some (genericStart k a b / E.factor k (E.netUnit k)) }, none)

/-- `data.val0 = float(conn[prop]); data.unit = conn[prop + '_unit']` (networks/network.py 1530-1562). -/
def fileOne (c : StartConn K) (row : PropKind → Option K × String) (k : PropKind) : PyStep (StartState K) := fun s =>
  (s.put k (c.box k) { s.box k (c.box k) with val0 := (row k).1, unit := (row k).2 }, none)

/-- `Network.init_conn_params_from_path` (networks/network.py 1530-1562) without compositions. -/
def fromFile (E : StartEnv K) (c : StartConn K) : PyStep (StartState K) :=
  match E.file c.id with
  | none => PyStep.skip
  | some row =>
    (PyStep.forEach (fileOne c row) [.m, .p, .h]).andThen
      (fun s => ({ s with good := fun i => if i = c.id then true else s.good i }, none))

/-- Starting value of one variable (networks/network.py 1695-1701). -/
def startOne (E : StartEnv K) (c : StartConn K) (k : PropKind) : PyStep (StartState K) := fun s =>
  if (s.box k (c.box k)).isVar then
    PyStep.andThen (if s.good c.id then PyStep.skip else initVal0 E c k)
      (fun s => (s.putSI k (c.box k)
        ((s.box k (c.box k)).val0.map (· * E.factor k (s.box k (c.box k)).unit)), none)) s
  else (s, none)

/-- First loop of `init_properties` (networks/network.py 1680-1703). -/
def startFirst (E : StartEnv K) (c : StartConn K) : PyStep (StartState K) :=
  (fromFile E c).andThen (PyStep.forEach (startOne E c) [.m, .p, .h])

/-- Starting value of a referenced property (networks/network.py 1708-1716). -/
def startRef (c : StartConn K) (k : PropKind) : PyStep (StartState K) := fun s =>
  match c.ref k with
  | none => (s, none)
  | some (j, factor, delta) =>
    if (s.box k (c.box k)).isSet then (s, none)
    else (s.putSI k (c.box k) ((s.box k j).si.map (· * factor + delta)), none)

/-- `try: h = ...; except ValueError: pass` (networks/network.py 1778-1788). -/
def startTry (c : StartConn K) (r : PyRes K) : PyStep (StartState K) := fun s =>
  match r with
  | .ok h => (s.putSI .h (c.box .h) (some h), none)
  | .error .valueError => (s, none)
  | .error e => (s, some e)

/-- Enthalpy for a specified vapour fraction (networks/network.py 1778-1782). -/
def startX (E : StartEnv K) (c : StartConn K) : PyStep (StartState K) := fun s =>
  match c.x with
  | none => (s, none)
  | some x => startTry c (E.hpQ c.id (s.box .p (c.box .p)).si x) s

/-- Enthalpy for a specified temperature (networks/network.py 1784-1788). -/
def startT (E : StartEnv K) (c : StartConn K) : PyStep (StartState K) := fun s =>
  match c.T with
  | none => (s, none)
  | some T => startTry c (E.hpT c.id (s.box .p (c.box .p)).si T) s

/-- `Network.init_precalc_properties` (networks/network.py 1764-1788). -/
def startPrecalc (E : StartEnv K) (c : StartConn K) : PyStep (StartState K) := fun s =>
  if (s.box .h (c.box .h)).isVar then (startX E c).andThen (startT E c) s else (s, none)

/-- `if v < h` with nan (networks/network.py 1724-1735). -/
def optLt (v : Option K) (h : K) : Bool :=
  match v with
  | some v => decide (v < h)
  | none => false

/-- `if v > h` with nan (networks/network.py 1724-1735). -/
def optGt (v : Option K) (h : K) : Bool :=
  match v with
  | some v => decide (v > h)
  | none => false

/-- Starting values for specified phases (networks/network.py 1724-1735). -/
def startPhase (E : StartEnv K) (c : StartConn K) : PyStep (StartState K) := fun s =>
  if (s.box .h (c.box .h)).isVar then
    if optGt c.Td 0 ∨ c.state = some "g" then
      match E.hpQ c.id (s.box .p (c.box .p)).si 1 with
      | .error e => (s, some e)
      | .ok h => if optLt (s.box .h (c.box .h)).si h then (s.putSI .h (c.box .h) (some (h * (1001 / 1000))), none) else (s, none)
    else if optLt c.Td 0 ∨ c.state = some "l" then
      match E.hpQ c.id (s.box .p (c.box .p)).si 0 with
      | .error e => (s, some e)
      | .ok h => if optGt (s.box .h (c.box .h)).si h then (s.putSI .h (c.box .h) (some (h * (999 / 1000))), none) else (s, none)
    else (s, none)
  else (s, none)

/-- Second loop of `init_properties` (networks/network.py 1705-1735). -/
def startSecond (E : StartEnv K) (c : StartConn K) : PyStep (StartState K) := fun s =>
  PyStep.andThen
    (if s.good c.id then PyStep.skip else (PyStep.forEach (startRef c) [.m, .p, .h]).andThen (startPrecalc E c))
    (startPhase E c) s

/-- `Network.init_properties` (networks/network.py 1661-1738). -/
def initProperties (E : StartEnv K) (conns : List (StartConn K)) : PyStep (StartState K) :=
  (PyStep.forEach (startFirst E) conns).andThen (PyStep.forEach (startSecond E) conns)

/-- `Network.init_set_properties` (networks/network.py 1142-1176) for m, p, h: units of the network, SI
values of specified values; `prev` is `init_previous`. All containers belong to connections of the
network. -/
def setProperties (E : StartEnv K) (prev : Bool) (s : StartState K) : StartState K where
  box := fun k i =>
    let b := s.box k i
    { b with unit := E.netUnit k, si := if b.isSet then b.val.map (· * E.factor k (E.netUnit k)) else b.si }
  good := fun i => prev && s.good i

/-- What the solver does: new SI values of variables (networks/network.py 2247-2284). -/
def solveVariables (sol : PropKind → ℕ → K) (s : StartState K) : StartState K :=
  { s with box := fun k i => if (s.box k i).isVar then { s.box k i with si := some (sol k i) } else s.box k i }

/-- Results of a calculation (networks/network.py 2468-2472, connections/connection.py 952-961).
Simplification: containers are not shared (no branches). -/
def storeResults (E : StartEnv K) (s : StartState K) : StartState K where
  box := fun k i =>
    let b := s.box k i
    { b with val := b.si.map (· / E.factor k b.unit), val0 := b.si.map (· / E.factor k b.unit) }
  good := fun _ => true

/-- One calculation (networks/network.py 836-905, 1661-1738, 2468-2472). -/
def calculation (E : StartEnv K) (prev : Bool) (conns : List (StartConn K)) (sol : PropKind → ℕ → K)
    (s : StartState K) : StartState K × Option PyErr :=
  match initProperties E conns (setProperties E prev s) with
  | (s1, some e) => (s1, some e)
  | (s1, none) => (storeResults E (solveVariables sol s1), none)

/-! ### generic values of the components -/

/-- Component classes with generic starting values (classes cited at `sourceHint`). -/
inductive StartClass
  | compressor | pump | turbine | valve | node | dropletSeparator | drum | heatExchanger
  | simple (heat : Option Bool) | combustion | fuelCell | electrolyzer | other
  deriving DecidableEq

/-- `initialise_source(c, key)` as found by attribute lookup; `out1` tells whether the connector is the
first outlet; `heat` of simple heat exchangers is the sign of a specified `Q` (`some true`: positive).
Turbomachines define `initialise_Source` (compressor.py 591, turbine.py 463, pump.py 443) and inherit
`Component.initialise_source` (component.py 734-758). Others: valve.py 282-285, nodes/base.py 170-173,
droplet_separator.py 354-360, heat_exchangers/base.py 1074-1081, simple.py 837-845, combustion/base.py
1303-1306, engine.py 1263-1266, fuel_cell.py 799-803, water_electrolyzer.py 1122-1126. -/
def sourceHint (cls : StartClass) (out1 : Bool) (k : PropKind) : StartHint K :=
  match cls, k with
  | .valve, .p => .number 400000
  | .valve, _ => .number 500000
  | .node, .p => .number 100000
  | .node, _ => .number 500000
  | .dropletSeparator, .p => .number 1000000
  | .dropletSeparator, _ => if out1 then .sat 0 else .sat 1
  | .drum, .p => .number 1000000
  | .drum, _ => if out1 then .sat 0 else .sat 1
  | .heatExchanger, .p => .number 5000000
  | .heatExchanger, _ => if out1 then .temp (47315 / 100) else .temp (52315 / 100)
  | .simple _, .p => .number 100000
  | .simple (some false), _ => .number 100000
  | .simple (some true), _ => .number 500000
  | .simple none, _ => .number 300000
  | .combustion, .p => .number 500000
  | .combustion, _ => .number 1000000
  | .fuelCell, .p => .number 500000
  | .fuelCell, _ => .temp (29315 / 100)
  | .electrolyzer, .p => .number 500000
  | .electrolyzer, _ => .temp (32315 / 100)
  | _, _ => .number 0

/-- `initialise_target(c, key)`; compressor.py 645-648, pump.py 497-500, turbine.py 517-520, valve.py
311-314, nodes/base.py 200-203, droplet_separator.py 387-390, drum.py 342-348, heat_exchangers/base.py
1108-1115, simple.py 875-883, combustion/base.py 1333-1336, engine.py 1293-1296, fuel_cell.py 829-833,
water_electrolyzer.py 1152-1156. -/
def targetHint (cls : StartClass) (in1 : Bool) (k : PropKind) : StartHint K :=
  match cls, k with
  | .compressor, .p => .number 100000
  | .compressor, _ => .number 400000
  | .pump, .p => .number 100000
  | .pump, _ => .number 290000
  | .turbine, .p => .number 2500000
  | .turbine, _ => .number 2000000
  | .valve, .p => .number 500000
  | .valve, _ => .number 500000
  | .node, .p => .number 100000
  | .node, _ => .number 500000
  | .dropletSeparator, .p => .number 1000000
  | .dropletSeparator, _ => .sat (1 / 2)
  | .drum, .p => .number 1000000
  | .drum, _ => if in1 then .sat 0 else .sat (7 / 10)
  | .heatExchanger, .p => .number 5000000
  | .heatExchanger, _ => if in1 then .temp (57315 / 100) else .temp (49315 / 100)
  | .simple _, .p => .number 100000
  | .simple (some false), _ => .number 500000
  | .simple (some true), _ => .number 100000
  | .simple none, _ => .number 300000
  | .combustion, .p => .number 500000
  | .combustion, _ => .number 500000
  | .fuelCell, .p => .number 500000
  | .fuelCell, _ => .temp (32315 / 100)
  | .electrolyzer, .p => .number 500000
  | .electrolyzer, _ => .temp (29315 / 100)
  | .other, _ => .number 0

end Tespy
