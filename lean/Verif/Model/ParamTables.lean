import Verif.Model.Component

/-!
Parameters of every component class (`get_parameters`) and the set-up of a component from what `set_attr` left in them.

Simplifications: of a data container only the kind, the elements of a group, the number of equations and the presence of a
function are kept; limits, default values and the functions themselves are left out.
-/

namespace Tespy

/-- One entry of the dictionary of `get_parameters` (components/component.py 429-430): key, kind of the data container,
`elements`, `func is not None`, `num_eq`. -/
structure PEntry where
  name : String
  kind : DcKind
  elements : List String
  hasFunc : Bool
  numEq : ℕ
  deriving DecidableEq

/-- Component classes of the package (components/__init__.py 1-35); `HeatExchangerSimple` is `SimpleHeatExchanger`. -/
inductive CompClass
  | turbomachine | pump | compressor | turbine | steamTurbine | subsystemInterface
  | sink | source | cycleCloser | pipe | valve | splitter
  | merge | separator | dropletSeparator | drum | heatExchanger | condenser
  | desuperheater | movingBoundaryHeatExchanger | simpleHeatExchanger | solarCollector | parabolicTrough | combustionChamber
  | diabaticCombustionChamber | combustionEngine | fuelCell | waterElectrolyzer
  deriving DecidableEq

/-- `Turbomachine.get_parameters` (components/turbomachinery/base.py 85-95). -/
def turbomachineParams : List PEntry :=
  [⟨"P", .cp, [], true, 1⟩, ⟨"pr", .cp, [], true, 1⟩]

/-- `Pump.get_parameters` (components/turbomachinery/pump.py 161-189). -/
def pumpParams : List PEntry :=
  [⟨"P", .cp, [], true, 1⟩, ⟨"eta_s", .cp, [], true, 1⟩, ⟨"pr", .cp, [], true, 1⟩, ⟨"eta_s_char", .cc, [], true, 1⟩,
    ⟨"flow_char", .cc, [], true, 1⟩]

/-- `Compressor.get_parameters` (components/turbomachinery/compressor.py 158-190). -/
def compressorParams : List PEntry :=
  [⟨"P", .cp, [], true, 1⟩, ⟨"eta_s", .cp, [], true, 1⟩, ⟨"eta_s_char", .cc, [], true, 1⟩, ⟨"pr", .cp, [], true, 1⟩,
    ⟨"igva", .cp, [], false, 0⟩, ⟨"char_map_eta_s", .cm, [], false, 0⟩,
    ⟨"char_map_eta_s_group", .gcp, ["char_map_eta_s", "igva"], true, 1⟩, ⟨"char_map_pr", .cm, [], false, 0⟩,
    ⟨"char_map_pr_group", .gcp, ["char_map_pr", "igva"], true, 1⟩]

/-- `Turbine.get_parameters` (components/turbomachinery/turbine.py 154-177). -/
def turbineParams : List PEntry :=
  [⟨"P", .cp, [], true, 1⟩, ⟨"eta_s", .cp, [], true, 1⟩, ⟨"eta_s_char", .cc, [], true, 1⟩, ⟨"pr", .cp, [], true, 1⟩,
    ⟨"cone", .simple, [], true, 1⟩]

/-- `SteamTurbine.get_parameters` (components/turbomachinery/steam_turbine.py 153-164). -/
def steamTurbineParams : List PEntry :=
  turbineParams ++
  [⟨"alpha", .cp, [], false, 0⟩, ⟨"eta_s_dry", .cp, [], false, 0⟩,
    ⟨"eta_s_dry_group", .gcp, ["alpha", "eta_s_dry"], true, 1⟩]

/-- `SubsystemInterface.get_parameters` (components/basics/subsystem_interface.py 148-149). -/
def subsystemInterfaceParams : List PEntry :=
  [⟨"num_inter", .simple, [], false, 0⟩]

/-- `CycleCloser.get_parameters` (components/basics/cycle_closer.py 100-104). -/
def cycleCloserParams : List PEntry :=
  [⟨"mass_deviation", .cp, [], false, 0⟩, ⟨"fluid_deviation", .cp, [], false, 0⟩]

/-- `Valve.get_parameters` (components/piping/valve.py 139-153). -/
def valveParams : List PEntry :=
  [⟨"pr", .cp, [], true, 1⟩, ⟨"zeta", .cp, [], true, 1⟩, ⟨"dp_char", .cc, [], true, 1⟩]

/-- `Splitter.get_parameters` (components/nodes/splitter.py 123-124). -/
def splitterParams : List PEntry :=
  [⟨"num_out", .simple, [], false, 0⟩]

/-- `Merge.get_parameters` (components/nodes/merge.py 136-137). -/
def mergeParams : List PEntry :=
  [⟨"num_in", .simple, [], false, 0⟩]

/-- `Separator.get_parameters` (components/nodes/separator.py 141-142). -/
def separatorParams : List PEntry :=
  [⟨"num_out", .simple, [], false, 0⟩]

/-- `HeatExchanger.get_parameters` (components/heat_exchangers/base.py 232-296). -/
def heatExchangerParams : List PEntry :=
  [⟨"Q", .cp, [], true, 1⟩, ⟨"kA", .cp, [], true, 1⟩, ⟨"td_log", .cp, [], false, 0⟩, ⟨"ttd_u", .cp, [], true, 1⟩,
    ⟨"ttd_l", .cp, [], true, 1⟩, ⟨"ttd_min", .cp, [], true, 1⟩, ⟨"pr1", .cp, [], true, 1⟩, ⟨"pr2", .cp, [], true, 1⟩,
    ⟨"dp1", .cp, [], true, 1⟩, ⟨"dp2", .cp, [], true, 1⟩, ⟨"zeta1", .cp, [], true, 1⟩, ⟨"zeta2", .cp, [], true, 1⟩,
    ⟨"kA_char", .gcc, ["kA_char1", "kA_char2"], true, 1⟩, ⟨"kA_char1", .cc, [], false, 0⟩,
    ⟨"kA_char2", .cc, [], false, 0⟩, ⟨"eff_cold", .cp, [], true, 1⟩, ⟨"eff_hot", .cp, [], true, 1⟩,
    ⟨"eff_max", .cp, [], true, 1⟩]

/-- `Condenser.get_parameters` (components/heat_exchangers/condenser.py 246-253). -/
def condenserParams : List PEntry :=
  heatExchangerParams ++
  [⟨"subcooling", .simple, [], true, 1⟩]

/-- `MovingBoundaryHeatExchanger.get_parameters` (components/heat_exchangers/movingboundary.py 265-286). -/
def movingBoundaryHeatExchangerParams : List PEntry :=
  heatExchangerParams ++
  [⟨"U_gas_gas", .cp, [], false, 0⟩, ⟨"U_gas_twophase", .cp, [], false, 0⟩, ⟨"U_gas_liquid", .cp, [], false, 0⟩,
    ⟨"U_liquid_gas", .cp, [], false, 0⟩, ⟨"U_liquid_twophase", .cp, [], false, 0⟩, ⟨"U_liquid_liquid", .cp, [], false, 0⟩,
    ⟨"U_twophase_gas", .cp, [], false, 0⟩, ⟨"U_twophase_twophase", .cp, [], false, 0⟩,
    ⟨"U_twophase_liquid", .cp, [], false, 0⟩, ⟨"A", .cp, [], false, 0⟩, ⟨"UA", .cp, [], true, 1⟩,
    ⟨"td_pinch", .cp, [], true, 1⟩]

/-- `SimpleHeatExchanger.get_parameters` (components/heat_exchangers/simple.py 205-243). -/
def simpleHeatExchangerParams : List PEntry :=
  [⟨"Q", .cp, [], true, 1⟩, ⟨"pr", .cp, [], true, 1⟩, ⟨"zeta", .cp, [], true, 1⟩, ⟨"D", .cp, [], false, 0⟩,
    ⟨"L", .cp, [], false, 0⟩, ⟨"ks", .cp, [], false, 0⟩, ⟨"ks_HW", .cp, [], false, 0⟩, ⟨"kA", .cp, [], false, 0⟩,
    ⟨"kA_char", .cc, [], false, 0⟩, ⟨"Tamb", .cp, [], false, 0⟩, ⟨"dissipative", .simple, [], false, 0⟩,
    ⟨"darcy_group", .gcp, ["L", "ks", "D"], true, 1⟩, ⟨"hw_group", .gcp, ["L", "ks_HW", "D"], true, 1⟩,
    ⟨"kA_group", .gcp, ["kA", "Tamb"], true, 1⟩, ⟨"kA_char_group", .gcp, ["kA_char", "Tamb"], true, 1⟩]

/-- `SolarCollector.get_parameters` (components/heat_exchangers/solar_collector.py 189-207). -/
def solarCollectorParams : List PEntry :=
  (simpleHeatExchangerParams.filter (fun e => e.name ∉ ["kA", "kA_char", "kA_group", "kA_char_group"])) ++
  [⟨"E", .cp, [], false, 0⟩, ⟨"A", .cp, [], false, 0⟩, ⟨"eta_opt", .cp, [], false, 0⟩, ⟨"lkf_lin", .cp, [], false, 0⟩,
    ⟨"lkf_quad", .cp, [], false, 0⟩, ⟨"Q_loss", .cp, [], false, 0⟩,
    ⟨"energy_group", .gcp, ["E", "eta_opt", "lkf_lin", "lkf_quad", "A", "Tamb"], true, 1⟩]

/-- `ParabolicTrough.get_parameters` (components/heat_exchangers/parabolic_trough.py 226-247). -/
def parabolicTroughParams : List PEntry :=
  (simpleHeatExchangerParams.filter (fun e => e.name ∉ ["kA", "kA_char", "kA_group", "kA_char_group"])) ++
  [⟨"E", .cp, [], false, 0⟩, ⟨"A", .cp, [], false, 0⟩, ⟨"eta_opt", .cp, [], false, 0⟩, ⟨"c_1", .cp, [], false, 0⟩,
    ⟨"c_2", .cp, [], false, 0⟩, ⟨"iam_1", .cp, [], false, 0⟩, ⟨"iam_2", .cp, [], false, 0⟩, ⟨"aoi", .cp, [], false, 0⟩,
    ⟨"doc", .cp, [], false, 0⟩, ⟨"Q_loss", .cp, [], false, 0⟩,
    ⟨"energy_group", .gcp, ["E", "eta_opt", "aoi", "doc", "c_1", "c_2", "iam_1", "iam_2", "A", "Tamb"], true, 1⟩]

/-- `CombustionChamber.get_parameters` (components/combustion/base.py 162-170). -/
def combustionChamberParams : List PEntry :=
  [⟨"lamb", .cp, [], true, 1⟩, ⟨"ti", .cp, [], true, 1⟩]

/-- `DiabaticCombustionChamber.get_parameters` (components/combustion/diabatic.py 199-216). -/
def diabaticCombustionChamberParams : List PEntry :=
  [⟨"lamb", .cp, [], true, 1⟩, ⟨"ti", .cp, [], true, 1⟩, ⟨"pr", .cp, [], true, 1⟩, ⟨"eta", .cp, [], true, 1⟩,
    ⟨"Q_loss", .cp, [], false, 0⟩]

/-- `CombustionEngine.get_parameters` (components/combustion/engine.py 250-284). -/
def combustionEngineParams : List PEntry :=
  [⟨"lamb", .cp, [], true, 1⟩, ⟨"ti", .cp, [], true, 1⟩, ⟨"P", .cp, [], false, 0⟩, ⟨"Q1", .cp, [], true, 1⟩,
    ⟨"Q2", .cp, [], true, 1⟩, ⟨"Qloss", .cp, [], false, 0⟩, ⟨"pr1", .cp, [], true, 1⟩, ⟨"pr2", .cp, [], true, 1⟩,
    ⟨"zeta1", .cp, [], true, 1⟩, ⟨"zeta2", .cp, [], true, 1⟩, ⟨"tiP_char", .cc, [], false, 0⟩,
    ⟨"Q1_char", .cc, [], false, 0⟩, ⟨"Q2_char", .cc, [], false, 0⟩, ⟨"Qloss_char", .cc, [], false, 0⟩,
    ⟨"eta_mech", .simple, [], false, 0⟩, ⟨"T_v_inner", .simple, [], false, 0⟩]

/-- `FuelCell.get_parameters` (components/reactors/fuel_cell.py 160-183). -/
def fuelCellParams : List PEntry :=
  [⟨"P", .cp, [], false, 0⟩, ⟨"Q", .cp, [], true, 1⟩, ⟨"pr", .cp, [], true, 1⟩, ⟨"zeta", .cp, [], true, 1⟩,
    ⟨"eta", .cp, [], true, 1⟩, ⟨"e", .cp, [], true, 1⟩]

/-- `WaterElectrolyzer.get_parameters` (components/reactors/water_electrolyzer.py 190-218). -/
def waterElectrolyzerParams : List PEntry :=
  [⟨"P", .cp, [], false, 0⟩, ⟨"Q", .cp, [], true, 1⟩, ⟨"pr", .cp, [], true, 1⟩, ⟨"zeta", .cp, [], true, 1⟩,
    ⟨"eta", .cp, [], true, 1⟩, ⟨"eta_char", .cc, [], true, 1⟩, ⟨"e", .cp, [], true, 1⟩]

/-- `get_parameters` of a class; classes without their own inherit it (components/component.py 429-430). -/
def CompClass.params : CompClass → List PEntry
  | .turbomachine => turbomachineParams
  | .pump => pumpParams
  | .compressor => compressorParams
  | .turbine => turbineParams
  | .steamTurbine => steamTurbineParams
  | .subsystemInterface => subsystemInterfaceParams
  | .sink => []
  | .source => []
  | .cycleCloser => cycleCloserParams
  | .pipe => simpleHeatExchangerParams
  | .valve => valveParams
  | .splitter => splitterParams
  | .merge => mergeParams
  | .separator => separatorParams
  | .dropletSeparator => []
  | .drum => []
  | .heatExchanger => heatExchangerParams
  | .condenser => condenserParams
  | .desuperheater => heatExchangerParams
  | .movingBoundaryHeatExchanger => movingBoundaryHeatExchangerParams
  | .simpleHeatExchanger => simpleHeatExchangerParams
  | .solarCollector => solarCollectorParams
  | .parabolicTrough => parabolicTroughParams
  | .combustionChamber => combustionChamberParams
  | .diabaticCombustionChamber => diabaticCombustionChamberParams
  | .combustionEngine => combustionEngineParams
  | .fuelCell => fuelCellParams
  | .waterElectrolyzer => waterElectrolyzerParams

section
variable {K : Type} [Zero K] [DecidableEq K]

/-- A new component of a class (components/component.py 122-161): all containers with `is_set` and `is_var` false. -/
def CompClass.new (cls : CompClass) : Comp K where
  param := fun k => ((cls.params.find? (·.name = k)).map (fun e =>
    ⟨e.kind, fun a => if a = "is_set" ∨ a = "is_var" ∨ (a = "val" ∧ k = "subcooling") then .bool false else .none⟩))
  names := cls.params.map (·.name)
  design := []
  offdesign := []
  flag := fun _ => false
  text := fun _ => .none
  newDesign := true

/-- The truth value of an attribute of a parameter (`data.is_set`, `data.is_var`, components/component.py 352-413). -/
def Comp.flagAttr (c : Comp K) (p a : String) : Bool :=
  match c.param p with
  | some d => (d.attr a).truthy
  | none => false

/-- Flags a class sets itself at the begin of `preprocess`: the subcooling of condensers (heat_exchangers/condenser.py 257-258),
power and heat loss of engines (combustion/engine.py 353-365), power of fuel cells and electrolyzers
(reactors/fuel_cell.py 218-223, reactors/water_electrolyzer.py 259-264). -/
def CompClass.ownVars : CompClass → List String
  | .combustionEngine => ["P", "Qloss"]
  | .fuelCell => ["P"]
  | .waterElectrolyzer => ["P"]
  | _ => []

/-- `is_set` and `is_var` of a parameter when the loop of `preprocess` starts (same lines as `ownVars`). -/
def CompClass.flags (cls : CompClass) (c : Comp K) (p : String) : Bool × Bool :=
  if cls = .condenser ∧ p = "subcooling" then (!(c.flagAttr p "val"), c.flagAttr p "is_var")
  else if p ∈ cls.ownVars ∧ c.flagAttr p "is_set" = false then (true, true)
  else (c.flagAttr p "is_set", c.flagAttr p "is_var")

/-- The parameters with flags (components/component.py 352-413). -/
def tabParams (tab : List PEntry) (f : String → Bool × Bool) : List PParam :=
  tab.map (fun e => ⟨e.name, e.kind, (f e.name).1, (f e.name).2, e.elements, e.hasFunc, e.numEq⟩)

/-- `preprocess` of a component (components/component.py 328-413 and the lines of `ownVars`); `constraints` are the numbers of
equations of the mandatory constraints. -/
def CompClass.setup (cls : CompClass) (constraints : List ℕ) (c : Comp K) : Prep :=
  preprocess constraints (tabParams cls.params (cls.flags c))

end

end Tespy
