import Verif.Model.Topology
import Verif.Model.Eqs
/-!
The equations of a whole network: which connections a component finds as its inlets and outlets
(networks/network.py 770-781) and the mandatory equations it evaluates with them.

Simplifications: as in Model/Topology.lean (objects, order of connections) and Model/Eqs.lean (equations). A connection
`c` holds the containers `port c`. Parameters with equations of their own (efficiencies, heat transfer coefficients, ...)
are not needed here: they only remove solutions.
-/
namespace Tespy

/-- Functions of reacting components which are parameters of `Dev`: residuals of combustion and reactors, oxygen mass
fraction of water (combustion/base.py 490-494, 837-855, engine.py 388-938, reactors/fuel_cell.py 443,
water_electrolyzer.py 542). -/
structure ReactFn (K : Type) where
  ratio : K
  stoich : EqState K → String → K
  energy : EqState K → K
  tiP : EqState K → K
  q1 : EqState K → K
  q2 : EqState K → K
  qloss : EqState K → K

/-- A network with its containers (networks/network.py 768-834). -/
structure BalNet (K : Type) where
  conns : List ConnObj
  comps : List CompObj
  port : ConnObj → Port
  react : CompObj → ReactFn K

/-- The equations of a component of class `k` with its inlets and outlets in order (`self.inl[0]`, ... in the functions
cited at `Dev.constraints`). A number of connections the class does not have gives `none`; it is refused before
(networks/network.py 809-834). Condensers and moving boundary heat exchangers inherit the mandatory equation of the heat
exchanger (heat_exchangers/condenser.py, movingboundary.py); turbomachines (turbomachinery/base.py), simple heat
exchangers, pipes, solar collectors and parabolic troughs (heat_exchangers/simple.py), sources and sinks have none. -/
def devOf {K : Type} (k : Cls) (r : ReactFn K) : List Port → List Port → Option (Dev K) :=
  match k with
  | .source => fun i o => match i, o with
    | [], [_] => some .other
    | _, _ => none
  | .sink => fun i o => match i, o with
    | [_], [] => some .other
    | _, _ => none
  | .cycleCloser => fun i o => match i, o with
    | [a], [b] => some (.cycleCloser a b)
    | _, _ => none
  | .subsystemInterface => fun i o => if i.length = o.length then some (.subsystemInterface (i.zip o)) else none
  | .splitter => fun i o => match i with
    | [a] => some (.splitter a o)
    | _ => none
  | .merge => fun i o => match i, o with
    | a :: i, [b] => some (.merge a i b)
    | _, _ => none
  | .separator => fun i o => match i with
    | [a] => some (.separator a o)
    | _ => none
  | .dropletSeparator => fun i o => match i, o with
    | [a], [b, c] => some (.dropletSeparator a b c)
    | _, _ => none
  | .drum => fun i o => match i, o with
    | [a, b], [c, d] => some (.drum a b c d)
    | _, _ => none
  | .combustionChamber => fun i o => match i, o with
    | [a, b], [c] => some (.combustionChamber a b c r.stoich r.energy)
    | _, _ => none
  | .diabaticCombustionChamber => fun i o => match i, o with
    | [a, b], [c] => some (.diabaticCombustionChamber a b c r.stoich)
    | _, _ => none
  | .combustionEngine => fun i o => match i, o with
    | [c0, c1, a, b], [d0, d1, c] => some (.combustionEngine c0 c1 a b d0 d1 c r.stoich r.energy r.tiP r.q1 r.q2 r.qloss)
    | _, _ => none
  | .fuelCell => fun i o => match i, o with
    | [a, b, c], [d, e] => some (.fuelCell a b c d e r.ratio r.energy)
    | _, _ => none
  | .waterElectrolyzer => fun i o => match i, o with
    | [a, b], [c, d, e] => some (.electrolyzer a b c d e r.ratio r.energy)
    | _, _ => none
  | .desuperheater => fun i o => match i, o with
    | [a, b], [c, d] => some (.desuperheater a b c d)
    | _, _ => none
  | .heatExchanger | .condenser | .movingBoundary => fun i o => match i, o with
    | [a, b], [c, d] => some (.heatExchanger a b c d)
    | _, _ => none
  | .valve => fun i o => match i, o with
    | [a], [b] => some (.valve a b)
    | _, _ => none
  | .simpleHeatExchanger | .heatExchangerSimple | .solarCollector | .parabolicTrough | .pipe
  | .turbine | .steamTurbine | .pump | .compressor => fun i o => match i, o with
    | [_], [_] => some .other
    | _, _ => none

/-- The pairs of an inlet and an outlet through which a branch continues: the methods `propagate_to_target`
(components/component.py 309-317 and the overrides cited in Model/Topology.lean), so that both hold the same containers of
mass flow and composition after the topology reduction (networks/network.py 970-1124). The drum continues the branch
as well, see `Spec.Reduced`. -/
def Cls.through {α : Type} (k : Cls) : List α → List α → List (α × α) :=
  match k with
  | .subsystemInterface => fun i o => i.zip o
  | .combustionEngine => fun i o => (i.zip o).take 2
  | .fuelCell | .waterElectrolyzer => fun i o => (i.zip o).take 1
  | .desuperheater | .heatExchanger | .condenser | .movingBoundary => fun i o => i.zip o
  | .valve | .simpleHeatExchanger | .heatExchangerSimple | .solarCollector | .parabolicTrough | .pipe
  | .turbine | .steamTurbine | .pump | .compressor => fun i o => i.zip o
  | _ => fun _ _ => []

section
variable {K : Type} [CommRing K]

/-- `P.val` of turbomachines (turbomachinery/base.py 239-240), `Q.val` of simple heat exchangers (heat_exchangers/simple.py
890) and of heat exchangers with the first inlet and outlet (heat_exchangers/base.py 1119-1121) -/
def energyRise (s : EqState K) (i o : Port) : K := s.mv i * (s.hv o - s.hv i)

end
end Tespy
