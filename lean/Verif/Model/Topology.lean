import Mathlib.Data.List.Sort
import Mathlib.Data.String.Basic
import Verif.Model.Tables
/-
Topology check and branch search (networks/network.py 469-508, 691-834,
`propagate_to_target` / `start_branch` of all component classes).
-/
namespace Tespy

/-- Component classes shipped with the package (components/__init__.py). -/
inductive Cls
  | source | sink | cycleCloser | subsystemInterface
  | splitter | merge | separator | dropletSeparator | drum
  | combustionChamber | diabaticCombustionChamber | combustionEngine
  | fuelCell | waterElectrolyzer
  | heatExchanger | condenser | desuperheater | movingBoundary
  | simpleHeatExchanger | heatExchangerSimple | solarCollector | parabolicTrough | pipe
  | valve | turbine | steamTurbine | pump | compressor
  deriving DecidableEq, Repr

/-- Class names (`comp.__class__.__name__`) (components/__init__.py 1-31). -/
def Cls.ofName : String → Option Cls
  | "Source" => some .source
  | "Sink" => some .sink
  | "CycleCloser" => some .cycleCloser
  | "SubsystemInterface" => some .subsystemInterface
  | "Splitter" => some .splitter
  | "Merge" => some .merge
  | "Separator" => some .separator
  | "DropletSeparator" => some .dropletSeparator
  | "Drum" => some .drum
  | "CombustionChamber" => some .combustionChamber
  | "DiabaticCombustionChamber" => some .diabaticCombustionChamber
  | "CombustionEngine" => some .combustionEngine
  | "FuelCell" => some .fuelCell
  | "WaterElectrolyzer" => some .waterElectrolyzer
  | "HeatExchanger" => some .heatExchanger
  | "Condenser" => some .condenser
  | "Desuperheater" => some .desuperheater
  | "MovingBoundaryHeatExchanger" => some .movingBoundary
  | "SimpleHeatExchanger" => some .simpleHeatExchanger
  | "HeatExchangerSimple" => some .heatExchangerSimple
  | "SolarCollector" => some .solarCollector
  | "ParabolicTrough" => some .parabolicTrough
  | "Pipe" => some .pipe
  | "Valve" => some .valve
  | "Turbine" => some .turbine
  | "SteamTurbine" => some .steamTurbine
  | "Pump" => some .pump
  | "Compressor" => some .compressor
  | _ => none

/-- `['in' + str(i + 1) for i in range(n)]` (e.g. components/nodes/merge.py 174,
components/basics/subsystem_interface.py 153). -/
def numbered (pre : String) (n : ℕ) : List String :=
  (List.range n).map (fun i => pre ++ toString (i + 1))

/-- `inlets()` of the class; `n` is the value of `num_in`/`num_inter` where the class
has such a parameter (components/basics/sink.py 67-68, cycle_closer.py 123-124,
subsystem_interface.py 151-155, nodes/splitter.py 146-147, merge.py 172-177,
separator.py 175-176, droplet_separator.py 171-172, drum.py 168-169,
combustion/base.py 205-206, engine.py 313-314, reactors/fuel_cell.py 209-210,
water_electrolyzer.py 250-251, heat_exchangers/base.py 308-309, simple.py 246-247,
piping/valve.py 166-167, turbomachinery/base.py 98-99, component.py 436-437). -/
def Cls.inlets (n : ℕ) : Cls → List String
  | .source => []
  | .subsystemInterface => numbered "in" n
  | .merge => numbered "in" n
  | .drum => ["in1", "in2"]
  | .combustionChamber => ["in1", "in2"]
  | .diabaticCombustionChamber => ["in1", "in2"]
  | .combustionEngine => ["in1", "in2", "in3", "in4"]
  | .fuelCell => ["in1", "in2", "in3"]
  | .waterElectrolyzer => ["in1", "in2"]
  | .heatExchanger => ["in1", "in2"]
  | .condenser => ["in1", "in2"]
  | .desuperheater => ["in1", "in2"]
  | .movingBoundary => ["in1", "in2"]
  | _ => ["in1"]

/-- `outlets()` of the class; `n` is the value of `num_out`/`num_inter` (same files as
`Cls.inlets`) (e.g. components/nodes/splitter.py 149-154). -/
def Cls.outlets (n : ℕ) : Cls → List String
  | .sink => []
  | .subsystemInterface => numbered "out" n
  | .splitter => numbered "out" n
  | .separator => numbered "out" n
  | .dropletSeparator => ["out1", "out2"]
  | .drum => ["out1", "out2"]
  | .combustionEngine => ["out1", "out2", "out3"]
  | .fuelCell => ["out1", "out2"]
  | .waterElectrolyzer => ["out1", "out2", "out3"]
  | .heatExchanger => ["out1", "out2"]
  | .condenser => ["out1", "out2"]
  | .desuperheater => ["out1", "out2"]
  | .movingBoundary => ["out1", "out2"]
  | _ => ["out1"]

/-- The component is of class `k` and declares the connectors of that class (components/component.py 102-135). -/
def CompObj.IsA (cp : CompObj) (k : Cls) : Prop :=
  Cls.ofName cp.ctype = some k ∧ ∃ n, cp.inlets = k.inlets n ∧ cp.outlets = k.outlets n

/-- `comp.inl` (networks/network.py 775-780): connections to the component in the order
of their `target_id`. pandas' `sort_values` is not stable; after `check_conns` the
keys are distinct, so the order is determined by the keys. -/
def inl (cs : List ConnObj) (cp : CompObj) : List ConnObj :=
  (cs.filter (fun c => c.target = cp)).insertionSort (fun a b => a.targetId ≤ b.targetId)

/-- `comp.outl` (networks/network.py 773-774, 781). -/
def outl (cs : List ConnObj) (cp : CompObj) : List ConnObj :=
  (cs.filter (fun c => c.source = cp)).insertionSort (fun a b => a.sourceId ≤ b.sourceId)

/-- `Network.check_conns` (networks/network.py 469-508). -/
def checkConns (cs : List ConnObj) : PyRes Unit :=
  if ¬ (cs.map (fun c => (c.source, c.sourceId))).Nodup then .error .networkError
  else if ¬ (cs.map (fun c => (c.target, c.targetId))).Nodup then .error .networkError
  else .ok ()

/-- `Network.check_components` (networks/network.py 809-834), with `num_i`, `num_o` set by
`init_components` (782-783) to the numbers of connectors declared now. -/
def checkComponents (cs : List ConnObj) : List CompObj → PyRes Unit
  | [] => .ok ()
  | cp :: cps =>
    if (cs.filter (fun c => c.source = cp)).length ≠ cp.outlets.length then .error .networkError
    else if (cs.filter (fun c => c.target = cp)).length ≠ cp.inlets.length then .error .networkError
    else checkComponents cs cps

/-- A branch dictionary: connections, components and subbranches (e.g. components/basics/source.py 70-83). -/
inductive Branch
  | mk (conns : List ConnObj) (comps : List CompObj) (subs : List (String × Branch))

namespace Branch
/-- `branch["connections"]` (tools/helpers.py 27-36). -/
def conns : Branch → List ConnObj | mk cs _ _ => cs
/-- `branch["components"]` (tools/helpers.py 27-36). -/
def comps : Branch → List CompObj | mk _ ps _ => ps
/-- `branch["subbranches"]` (tools/helpers.py 27-36). -/
def subs : Branch → Dict String Branch | mk _ _ ss => ss
/-- `branch["connections"] += [o]; branch["components"] += [o.target]` (components/component.py 309-317). -/
def push (b : Branch) (o : ConnObj) : Branch := mk (b.conns ++ [o]) (b.comps ++ [o.target]) b.subs
/-- `branch["subbranches"][o.label] = sub` (components/nodes/base.py 207-214). -/
def addSub (b : Branch) (o : ConnObj) (sub : Branch) : Branch :=
  mk b.conns b.comps (Dict.set b.subs o.label sub)
/-- a new (sub)branch beginning with outlet `o` of component `cp` (components/nodes/base.py 207-214). -/
def start (cp : CompObj) (o : ConnObj) : Branch := mk [o] [cp, o.target] []
end Branch

/-- How a component class passes a mass flow branch on (methods `propagate_to_target`, see `Cls.pass`). -/
inductive Pass
  | through | stop | fanout | drum | engine | reactor
  deriving DecidableEq, Repr

/-- The `propagate_to_target` implementation of the class: `component.py` 309-317
(through), `basics/sink.py` 74-75, `cycle_closer.py` 155-156, `nodes/merge.py` 337-338,
`separator.py` 202-203, `combustion/base.py` 232-233 (stop), `nodes/base.py` 205-214
(fanout), `nodes/drum.py` 353-382, `combustion/engine.py` 320-332,
`reactors/fuel_cell.py` 744-759, `water_electrolyzer.py` 1069-1082. -/
def Cls.pass : Cls → Pass
  | .sink => .stop
  | .cycleCloser => .stop
  | .merge => .stop
  | .separator => .stop
  | .combustionChamber => .stop
  | .diabaticCombustionChamber => .stop
  | .splitter => .fanout
  | .dropletSeparator => .fanout
  | .drum => .drum
  | .combustionEngine => .engine
  | .fuelCell => .reactor
  | .waterElectrolyzer => .reactor
  | _ => .through

/-- Class of a component; unknown classes inherit from `Component`
(components/component.py 309-317 and the overrides cited at `Cls.pass`). -/
def CompObj.pass (cp : CompObj) : Pass :=
  match Cls.ofName cp.ctype with
  | some k => k.pass
  | none => .through

/-- The outlet at the position of inlet `i`: `self.outl[self.inl.index(inconn)]`
(components/component.py 311-312). -/
def paired (cs : List ConnObj) (i : ConnObj) : PyRes ConnObj :=
  if i ∈ inl cs i.target then
    match (outl cs i.target)[(inl cs i.target).idxOf i]? with
    | some o => .ok o
    | none => .error .indexError
  else .error .valueError

/-- The loop of `NodeBase.propagate_to_target` (components/nodes/base.py 207-214):
`go` is the recursive call `outconn.target.propagate_to_target(subbranch)`. -/
def fanOut (go : Branch → PyRes Branch) (cp : CompObj) : List ConnObj → Branch → PyRes Branch
  | [], b => .ok b
  | o :: os, b =>
    match go (Branch.start cp o) with
    | .error e => .error e
    | .ok sub => fanOut go cp os (b.addSub o sub)

/-- `component.propagate_to_target(branch)` for the target of the last connection of the
branch. `fuel` bounds the recursion depth (`RecursionError` at 0; the limit of the
interpreter is not modelled otherwise). The side effects on default fluids
(fuel_cell.py 753-756, water_electrolyzer.py 1079-1080) are not modelled. -/
def propagate (cs : List ConnObj) : ℕ → Branch → PyRes Branch
  | 0, _ => .error .recursionError
  | fuel + 1, b =>
    match b.conns.getLast? with
    | none => .error .indexError
    | some i =>
      let pushOn (r : PyRes ConnObj) : PyRes Branch :=
        match r with
        | .error e => .error e
        | .ok o => propagate cs fuel (b.push o)
      match i.target.pass with
      | .stop => .ok b
      | .through => pushOn (paired cs i)
      | .fanout => fanOut (propagate cs fuel) i.target (outl cs i.target) b
      | .drum =>
        if i.targetId = "in2" then .ok b
        else
          match (outl cs i.target)[0]? with
          | none => .error .indexError
          | some o0 =>
            match propagate cs fuel (Branch.start i.target o0) with
            | .error e => .error e
            | .ok sub0 =>
              match (outl cs i.target)[1]? with
              | none => .error .indexError
              | some o1 =>
                if sub0.comps.getLast? = some i.target then
                  propagate cs fuel ((b.addSub o0 sub0).push o1)
                else
                  fanOut (propagate cs fuel) i.target [o1] (b.addSub o0 sub0)
      | .engine =>
        if i ∈ (inl cs i.target).drop 2 then .ok b else pushOn (paired cs i)
      | .reactor =>
        if (inl cs i.target)[0]? = some i then pushOn (paired cs i) else .ok b

/-- Connections at which `start_branch` begins branches; `none` if the class is no branch
source (`is_branch_source`). Simplified: a missing outlet (`IndexError`) is skipped; networks
which pass `check_components` before have all outlets
(components/basics/source.py 70-83, cycle_closer.py 130-143, nodes/merge.py 322-335,
separator.py 185-200, combustion/base.py 212-230, engine.py 370-371,
reactors/fuel_cell.py 719-733, water_electrolyzer.py 1036-1055). -/
def Cls.startPositions : Cls → Option (List ConnObj → List ConnObj)
  | .source => some (fun os => os.take 1)
  | .cycleCloser => some (fun os => os.take 1)
  | .merge => some (fun os => os.take 1)
  | .separator => some id
  | .combustionChamber => some (fun os => os.take 1)
  | .diabaticCombustionChamber => some (fun os => os.take 1)
  | .combustionEngine => some (fun os => (os.drop 2).take 1)
  | .fuelCell => some (fun os => (os.drop 1).take 1)
  | .waterElectrolyzer => some (fun os => os.drop 1)
  | _ => none

/-- Start connections of a component (empty if it is no branch source)
(methods `start_branch` cited at `Cls.startPositions`, networks/network.py 724-725). -/
def CompObj.starts (cs : List ConnObj) (cp : CompObj) : List ConnObj :=
  match Cls.ofName cp.ctype with
  | some k =>
    match k.startPositions with
    | some f => f (outl cs cp)
    | none => []
  | none => []

/-- `c.is_branch_source()` (networks/network.py 712-725). -/
def CompObj.isBranchSource (cp : CompObj) : Bool :=
  match Cls.ofName cp.ctype with
  | some k => k.startPositions.isSome
  | none => false

/-- The loop over start components of `create_massflow_and_fluid_branches`
(networks/network.py 724-725): `self.branches.update(start.start_branch())`. -/
def startBranches (cs : List ConnObj) (fuel : ℕ) (cp : CompObj) :
    List ConnObj → Dict String Branch → PyRes (Dict String Branch)
  | [], bs => .ok bs
  | o :: os, bs =>
    match propagate cs fuel (Branch.start cp o) with
    | .error e => .error e
    | .ok b => startBranches cs fuel cp os (Dict.set bs o.label b)

/-- All start components (networks/network.py 712-725). -/
def allBranches (cs : List ConnObj) (fuel : ℕ) :
    List CompObj → Dict String Branch → PyRes (Dict String Branch)
  | [], bs => .ok bs
  | cp :: cps, bs =>
    match startBranches cs fuel cp (cp.starts cs) bs with
    | .error e => .error e
    | .ok bs' => allBranches cs fuel cps bs'

/-- `Network.create_massflow_and_fluid_branches` (networks/network.py 712-725). -/
def createBranches (cs : List ConnObj) (comps : List CompObj) (fuel : ℕ) :
    PyRes (Dict String Branch) :=
  let start := comps.filter CompObj.isBranchSource
  if start = [] then .error .networkError
  else allBranches cs fuel start []

mutual
/-- `get_all_subdictionaries` for one value (tools/helpers.py 27-36): the entry without
its subbranches, then the subbranches. -/
def Branch.flat : Branch → List (List ConnObj × List CompObj)
  | .mk cs ps ss => if ss.length = 0 then [(cs, ps)] else (cs, ps) :: flatAll ss
/-- `get_all_subdictionaries` (tools/helpers.py 25-38). -/
def flatAll : List (String × Branch) → List (List ConnObj × List CompObj)
  | [] => []
  | (_, b) :: bs => b.flat ++ flatAll bs
end

/-- Outcome of the topology checks of `check_network` (networks/network.py 701-705,
without the fluid wrapper branches, see `Verif.Model.WrapperBranches`). -/
def checkTopology (s : NetTab) : Option PyErr :=
  match checkConns s.conns with
  | .error e => some e
  | .ok _ =>
    match checkComponents s.conns (s.comps.map Prod.snd) with
    | .error e => some e
    | .ok _ =>
      match createBranches s.conns (s.comps.map Prod.snd) (s.conns.length + 1) with
      | .error e => some e
      | .ok _ => none

end Tespy
