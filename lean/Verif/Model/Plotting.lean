import Verif.Model.Topology
/-
The data for diagrams of the states of a fluid: `get_plotting_data` of the components
(components/*, called by users after a simulation, tutorials in docs/).
A connection is represented by the four values that are read, in the units of the network.
-/
namespace Tespy
namespace Plotting

/-- the results of a connection that are read: pressure, enthalpy, entropy, specific volume
(`p.val`, `h.val`, `s.val`, `vol.val`, connections/connection.py 572-609) -/
structure State (K : Type) where
  p : K
  h : K
  s : K
  v : K
  deriving DecidableEq

/-- the names of properties used in the data (components/turbomachinery/base.py 273-279) -/
inductive Prop4
  | p | h | s | v
  deriving DecidableEq

/-- the value of the property with a name -/
def State.get {K : Type} (x : State K) : Prop4 → K
  | .p => x.p
  | .h => x.h
  | .s => x.s
  | .v => x.v

/-- the inner dictionary: property and values of the isoline, property and value of the starting
and of the ending point (components/turbomachinery/base.py 272-280) -/
structure Line (K : Type) where
  isoProp : Prop4
  isoValue : K
  isoEnd : K
  startProp : Prop4
  startValue : K
  endProp : Prop4
  endValue : K
  deriving DecidableEq

/-- one entry of the data, e.g. components/turbomachinery/base.py 272-280: the property of the
isoline, that of the two points, and the connections at the start and at the end; a connection that
does not exist raises `IndexError` -/
def line {K : Type} (iso pt : Prop4) (a b : Option (State K)) : PyRes (Line K) :=
  match a, b with
  | some a, some b => .ok ⟨iso, a.get iso, b.get iso, pt, a.get pt, pt, b.get pt⟩
  | _, _ => .error .indexError

/-- a dictionary, built entry by entry (the displays and comprehensions in the functions below) -/
def entries {K : Type} : List (ℕ × PyRes (Line K)) → PyRes (Dict ℕ (Line K))
  | [] => .ok []
  | (k, r) :: rest =>
    match r with
    | .error e => .error e
    | .ok l =>
      match entries rest with
      | .error e => .error e
      | .ok d => .ok ((k, l) :: d)

/-- `Turbomachine.get_plotting_data` (components/turbomachinery/base.py 271-281) -/
def turbomachineData {K : Type} (inl outl : List (State K)) : PyRes (Dict ℕ (Line K)) :=
  entries [(1, line .s .v inl[0]? outl[0]?)]

/-- `HeatExchanger.get_plotting_data` (components/heat_exchangers/base.py 1384-1393) -/
def heatExchangerData {K : Type} (inl outl : List (State K)) : PyRes (Dict ℕ (Line K)) :=
  entries ((List.range 2).map fun i => (i + 1, line .p .v inl[i]? outl[i]?))

/-- `SimpleHeatExchanger.get_plotting_data` (components/heat_exchangers/simple.py 1152-1162) -/
def simpleData {K : Type} (inl outl : List (State K)) : PyRes (Dict ℕ (Line K)) :=
  entries [(1, line .p .s inl[0]? outl[0]?)]

/-- `Valve.get_plotting_data` (components/piping/valve.py 410-420) -/
def valveData {K : Type} (inl outl : List (State K)) : PyRes (Dict ℕ (Line K)) :=
  entries [(1, line .h .v inl[0]? outl[0]?)]

/-- `Merge.get_plotting_data` (components/nodes/merge.py 494-503); `numI` is the number of the
inlets (`num_i`, networks/network.py 780) -/
def mergeData {K : Type} (numI : ℕ) (inl outl : List (State K)) : PyRes (Dict ℕ (Line K)) :=
  entries ((List.range numI).map fun i => (i + 1, line .p .v inl[i]? outl[0]?))

/-- `DropletSeparator.get_plotting_data` (components/nodes/droplet_separator.py 403-412) -/
def separatorData {K : Type} (inl outl : List (State K)) : PyRes (Dict ℕ (Line K)) :=
  entries ((List.range 2).map fun i => (i + 1, line .p .v inl[0]? outl[i]?))

/-- `Drum.get_plotting_data` (components/nodes/drum.py 436-482); the warning about a later change
of the keys is left out -/
def drumData {K : Type} (inl outl : List (State K)) : PyRes (Dict ℕ (Line K)) :=
  entries [(1, line .p .v outl[0]? outl[1]?), (2, line .p .v inl[0]? outl[0]?),
    (3, line .p .v inl[0]? outl[1]?), (4, line .p .v inl[1]? outl[0]?),
    (5, line .p .v inl[1]? outl[1]?)]

/-- `get_plotting_data` of a component of a class: the function of the class or the one it inherits
(the `class` statements, e.g. components/turbomachinery/pump.py 25, steam_turbine.py 27,
components/heat_exchangers/condenser.py 29, components/piping/pipe.py 18);
`Component.get_plotting_data` returns `None` (components/component.py 877-878) -/
def plottingData {K : Type} (numI : ℕ) (inl outl : List (State K)) :
    Cls → PyRes (Option (Dict ℕ (Line K)))
  | .turbine | .steamTurbine | .pump | .compressor => (turbomachineData inl outl).map some
  | .heatExchanger | .condenser | .desuperheater | .movingBoundary =>
    (heatExchangerData inl outl).map some
  | .simpleHeatExchanger | .heatExchangerSimple | .solarCollector | .parabolicTrough | .pipe =>
    (simpleData inl outl).map some
  | .valve => (valveData inl outl).map some
  | .merge => (mergeData numI inl outl).map some
  | .dropletSeparator => (separatorData inl outl).map some
  | .drum => (drumData inl outl).map some
  | _ => .ok none

/-- the plotting data of a component in a network with results `r`; `inl`, `outl` and `num_i` are
set when the network is initialised (networks/network.py 771-781) -/
def networkPlotting {K : Type} (cs : List ConnObj) (r : ConnObj → State K) (cp : CompObj) (k : Cls) :
    PyRes (Option (Dict ℕ (Line K))) :=
  plottingData cp.inlets.length ((inl cs cp).map r) ((outl cs cp).map r) k

end Plotting
end Tespy
