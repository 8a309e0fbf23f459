import Mathlib.Algebra.Ring.Basic
import Mathlib.Algebra.BigOperators.Group.List.Basic
import Mathlib.Logic.Function.Basic
import Verif.Model.Py
/-
Mandatory equations of the components: residual functions and the entries of the Jacobian.

A connection is represented by the containers of its mass flow, pressure, enthalpy and fluid
composition. Several connections may hold the same container (mass flow and fluid are shared
along a branch after the topology reduction, networks/network.py 970-1124). Containers are
numbered; `Var.m 3` is the variable held by mass flow container 3, `Var.x 2 "N2"` the entry
for N2 in fluid container 2, `Var.par "P"` a component parameter.
-/
namespace Tespy

/-- A connection of a component: its containers (connections/connection.py 572-609). -/
structure Port where
  m : ℕ
  p : ℕ
  h : ℕ
  fl : ℕ
  deriving DecidableEq

/-- Quantities which can be variables of the equation system
(networks/network.py 1118-1124, 1209-1225, components/component.py 345-349: the entries of `variables_dict`). -/
inductive Var
  | m (i : ℕ)
  | p (i : ℕ)
  | h (i : ℕ)
  | x (i : ℕ) (f : String)
  | par (n : String)
  deriving DecidableEq

variable {K : Type}

/-- Values and flags of all containers. `col` is `J_col` (`None` if never assigned,
tools/data_containers.py 497). `keys` are the fluids of a composition (`fluid.val`), `fixed`
the specified ones (`fluid.is_set`). -/
structure EqState (K : Type) where
  val : Var → K
  isVar : Var → Bool
  col : Var → Option ℕ
  keys : ℕ → List String
  fixed : ℕ → List String

/-- Property functions of CoolProp and other parts not modelled: enthalpy at vapour quality
(`h_mix_pQ`), its pressure derivative, temperature from pressure and enthalpy and its
derivatives. The first argument is the fluid composition (tools/fluid_properties/functions.py 88-160). -/
structure PropFuncs (K : Type) where
  hPQ : (String → K) → K → Bool → K
  dhPQ : (String → K) → K → Bool → K
  tPH : (String → K) → K → K → K
  dTdp : (String → K) → K → K → K
  dTdh : (String → K) → K → K → K

namespace EqState
variable (s : EqState K)
/-- `c.m.val_SI` (connections/connection.py 572-609, tools/data_containers.py 445-504). -/
def mv (c : Port) : K := s.val (.m c.m)
/-- `c.p.val_SI` (tools/data_containers.py 445-504). -/
def pv (c : Port) : K := s.val (.p c.p)
/-- `c.h.val_SI` (tools/data_containers.py 445-504). -/
def hv (c : Port) : K := s.val (.h c.h)
/-- `c.fluid.val[f]` (tools/data_containers.py 319-364). -/
def xv (c : Port) (f : String) : K := s.val (.x c.fl f)
/-- `c.fluid.is_var` (tools/data_containers.py 319-364). -/
def varFluids (c : Port) : List String := (s.keys c.fl).filter (fun f => s.isVar (.x c.fl f))
/-- `c.calc_T()` (connections/connection.py 738-741) -/
def tv (F : PropFuncs K) (c : Port) : K := F.tPH (s.xv c) (s.pv c) (s.hv c)
end EqState

/-- Value returned by a residual function: a number or a list
(the two kinds of results told apart by the assignment in components/component.py 590). -/
inductive Resid (K : Type)
  | scalar (x : K)
  | vec (l : List K)

/-- number of entries (components/component.py 590). -/
def Resid.len : Resid K → ℕ
  | .scalar _ => 1
  | .vec l => l.length

/-- `self.residual[a:a + n] = value` (components/component.py 590): numpy assigns a sequence of
the length of the slice, repeats a number or a sequence of length one, and raises `ValueError`
otherwise. -/
def fillRows (n : ℕ) : Resid K → PyRes (List K)
  | .scalar x => .ok (List.replicate n x)
  | .vec l =>
    if l.length = n then .ok l
    else match l with
      | [x] => .ok (List.replicate n x)
      | _ => .error .valueError

/-- A mandatory constraint: announced number of equations and value of the function (components/component.py 586-593). -/
abbrev Cons (K : Type) := ℕ × Resid K

/-- The mandatory part of `Component.solve` (components/component.py 586-593): functions of
constraints with zero equations are not evaluated. -/
def fillAll : List (Cons K) → PyRes (List K)
  | [] => .ok []
  | (n, r) :: cs =>
    match (if n > 0 then fillRows n r else .ok []) with
    | .error e => .error e
    | .ok rows =>
      match fillAll cs with
      | .error e => .error e
      | .ok rest => .ok (rows ++ rest)

section Ring
variable [CommRing K]

/-! ### residual functions -/

/-- `NodeBase.mass_flow_func` (components/nodes/base.py 36-41), also `Drum.mass_flow_func`
lines 224-230 (components/nodes/drum.py) -/
def nodeMass (s : EqState K) (inl outl : List Port) : Resid K :=
  .scalar (outl.foldl (fun r o => r - s.mv o) (inl.foldl (fun r i => r + s.mv i) 0))

/-- `NodeBase.pressure_equality_func` (components/nodes/base.py 92-98); the inlets are `i0`
and `inl`. -/
def nodePressure (s : EqState K) (i0 : Port) (inl outl : List Port) : Resid K :=
  .vec ((inl ++ outl).map (fun c => s.pv i0 - s.pv c))

/-- `DropletSeparator.energy_balance_func` (components/nodes/droplet_separator.py 193-199) -/
def nodeEnergy (s : EqState K) (inl outl : List Port) : Resid K :=
  .scalar (outl.foldl (fun r o => r - s.mv o * s.hv o)
    (inl.foldl (fun r i => r + s.mv i * s.hv i) 0))

/-- `Merge.fluid_func` (components/nodes/merge.py 203-209). The lookup `i.fluid.val[fluid]` of
a fluid the inlet does not know raises `KeyError`. -/
def mergeFluid (s : EqState K) (inl : List Port) (o : Port) : PyRes (Resid K) :=
  if inl.all (fun i => (s.keys o.fl).all (fun f => (s.keys i.fl).contains f)) then
    .ok (.vec ((s.keys o.fl).map (fun f =>
      inl.foldl (fun r i => r + s.xv i f * s.mv i) (-(s.xv o f) * s.mv o))))
  else .error .keyError

/-- `Merge.energy_balance_func` (components/nodes/merge.py 273-276) -/
def mergeEnergy (s : EqState K) (inl : List Port) (o : Port) : Resid K :=
  .scalar (inl.foldl (fun r i => r + s.mv i * s.hv i) (-(s.mv o) * s.hv o))

/-- `Splitter.energy_balance_func` (components/nodes/splitter.py 180-183) -/
def splitEnergy (s : EqState K) (i : Port) (outl : List Port) : Resid K :=
  .vec (outl.map (fun o => s.hv i - s.hv o))

/-- `Separator.fluid_func` (components/nodes/separator.py 227-234) for the given fluids. -/
def sepFluid (s : EqState K) (fluids : List String) (i : Port) (outl : List Port) : Resid K :=
  .vec (fluids.map (fun f =>
    outl.foldl (fun r o => r - s.xv o f * s.mv o) (s.xv i f * s.mv i)))

/-- `Separator.energy_balance_func` (components/nodes/separator.py 299-303) -/
def sepEnergy (F : PropFuncs K) (s : EqState K) (i : Port) (outl : List Port) : Resid K :=
  .vec (outl.map (fun o => s.tv F i - s.tv F o))

/-- `Drum.mass_flow_func` (components/nodes/drum.py 221-230) -/
def drumMass (s : EqState K) (i0 i1 o0 o1 : Port) : Resid K :=
  if i1.m = o0.m then .scalar (s.mv i0 - s.mv o1) else nodeMass s [i0, i1] [o0, o1]

/-- `Drum.energy_balance_func` (components/nodes/drum.py 270-284) -/
def drumEnergy (s : EqState K) (i0 i1 o0 o1 : Port) : Resid K :=
  if i1.m = o0.m then
    .scalar ((s.hv i1 - s.hv o0) * s.mv o0 + (s.hv i0 - s.hv o1) * s.mv i0)
  else nodeEnergy s [i0, i1] [o0, o1]

/-- `DropletSeparator.outlet_states_func` (components/nodes/droplet_separator.py 262-267) -/
def outletStates (F : PropFuncs K) (s : EqState K) (o0 o1 : Port) : Resid K :=
  .vec [F.hPQ (s.xv o0) (s.pv o0) false - s.hv o0, F.hPQ (s.xv o1) (s.pv o1) true - s.hv o1]

/-- `Component.pressure_equality_func` (components/component.py 893-896), pairs of inlet and
outlet -/
def eqPressure (s : EqState K) (io : List (Port × Port)) : Resid K :=
  .vec (io.map (fun c => s.pv c.1 - s.pv c.2))

/-- `Component.enthalpy_equality_func` (components/component.py 951-954) -/
def eqEnthalpy (s : EqState K) (io : List (Port × Port)) : Resid K :=
  .vec (io.map (fun c => s.hv c.1 - s.hv c.2))

/-- `HeatExchanger.energy_balance_func` (components/heat_exchangers/base.py 338-343) -/
def hexEnergy (s : EqState K) (i0 i1 o0 o1 : Port) : Resid K :=
  .scalar (s.mv i0 * (s.hv o0 - s.hv i0) + s.mv i1 * (s.hv o1 - s.hv i1))

/-- `Desuperheater.saturated_gas_func` (components/heat_exchangers/desuperheater.py 207-208) -/
def desuperSat (F : PropFuncs K) (s : EqState K) (o : Port) : Resid K :=
  .scalar (s.hv o - F.hPQ (s.xv o) (s.pv o) true)

/-- `CombustionChamber.mass_flow_func` (components/combustion/base.py 371-372) -/
def combMass (s : EqState K) (i0 i1 o : Port) : Resid K :=
  .scalar (s.mv i0 + s.mv i1 - s.mv o)

/-- `CombustionChamber.combustion_pressure_func` (components/combustion/base.py 425-430) -/
def combPressure (s : EqState K) (i0 i1 o : Port) : Resid K :=
  .vec [s.pv i0 - s.pv o, s.pv i1 - s.pv o]

/-- `WaterElectrolyzer.mass_flow_func` (components/reactors/water_electrolyzer.py 725-732);
`o2` is the oxygen mass fraction of water. -/
def elecMass (s : EqState K) (o2 : K) (i1 o1 o2p : Port) : Resid K :=
  .vec ((if s.isVar (.m i1.m) ∨ s.isVar (.m o1.m) then [o2 * s.mv i1 - s.mv o1] else [])
    ++ (if s.isVar (.m i1.m) ∨ s.isVar (.m o2p.m) then [(1 - o2) * s.mv i1 - s.mv o2p] else []))

/-- `WaterElectrolyzer.reactor_pressure_func` (components/reactors/water_electrolyzer.py 802-805) -/
def elecPressure (s : EqState K) (i1 o1 o2p : Port) : Resid K :=
  .vec [s.pv i1 - s.pv o1, s.pv i1 - s.pv o2p]

/-- `FuelCell.mass_flow_func` (components/reactors/fuel_cell.py 549-558) -/
def cellMass (s : EqState K) (o2 : K) (i1 i2 o1 : Port) : Resid K :=
  .vec ((if s.isVar (.m i1.m) ∨ s.isVar (.m o1.m) then [o2 * s.mv o1 - s.mv i1] else [])
    ++ (if s.isVar (.m i2.m) ∨ s.isVar (.m o1.m) then [(1 - o2) * s.mv o1 - s.mv i2] else []))

/-- `FuelCell.reactor_pressure_func` (components/reactors/fuel_cell.py 625-628) -/
def cellPressure (s : EqState K) (i1 i2 o1 : Port) : Resid K :=
  .vec [s.pv o1 - s.pv i1, s.pv o1 - s.pv i2]

/-! ### the components -/

/-- The components with mandatory equations and their connections. `scalars` are values of
scalar equations not modelled here (energy balances of reactors and combustion, engine
characteristics), `stoich` the combustion balance of one fluid
(the classes in components/, see `devOf` in Model/NetBalance.lean for the classes without equations of their own). -/
inductive Dev (K : Type)
  | merge (i0 : Port) (inl : List Port) (o : Port)
  | splitter (i : Port) (outl : List Port)
  | separator (i : Port) (outl : List Port)
  | drum (i0 i1 o0 o1 : Port)
  | dropletSeparator (i o0 o1 : Port)
  | subsystemInterface (io : List (Port × Port))
  | cycleCloser (i o : Port)
  | valve (i o : Port)
  | heatExchanger (i0 i1 o0 o1 : Port)
  | desuperheater (i0 i1 o0 o1 : Port)
  | combustionChamber (i0 i1 o : Port) (stoich : EqState K → String → K) (energy : EqState K → K)
  | diabaticCombustionChamber (i0 i1 o : Port) (stoich : EqState K → String → K)
  | combustionEngine (c0 c1 i0 i1 d0 d1 o : Port) (stoich : EqState K → String → K)
      (energy tiP q1 q2 qloss : EqState K → K)
  | electrolyzer (i0 i1 o0 o1 o2 : Port) (ratio : K) (energy : EqState K → K)
  | fuelCell (i0 i1 i2 o0 o1 : Port) (ratio : K) (energy : EqState K → K)
  | other

/-- `set(...)` of the fluids of a list of lists: every fluid once (Python set in components/nodes/merge.py 140-142). -/
def fluidSet (ls : List (List String)) : List String := ls.flatten.dedup

/-- The fluids which are variable at one of the connections (components/nodes/merge.py
140-142, separator.py 145-147). -/
def varSet (s : EqState K) (ports : List Port) : List String :=
  fluidSet (ports.map s.varFluids)

/-- `get_mandatory_constraints` together with the values of the functions. An `IndexError` is
raised by the fuel cell, which asks for a third outlet (components/reactors/fuel_cell.py
186-189) unless the mass flow of the second inlet is variable; a `KeyError` by `mergeFluid`;
an `IndexError` by the separator for an inlet without specified fluid
(components/nodes/separator.py 151). The value of `mergeFluid` is computed here also if it is
not needed. -/
def Dev.constraints (F : PropFuncs K) (s : EqState K) : Dev K → PyRes (List (Cons K))
  -- components/nodes/merge.py 140-170
  | .merge i0 inl o =>
    let v := varSet s (i0 :: inl ++ [o])
    let nf := if v.length = 0 then (s.keys i0.fl).length else v.length
    let nm := if v.length = 0 then 0 else 1
    match mergeFluid s (i0 :: inl) o with
    | .error e => .error e
    | .ok fl => .ok [(nm, nodeMass s (i0 :: inl) [o]), (nf, fl),
        (1, mergeEnergy s (i0 :: inl) o),
        ((i0 :: inl).length + [o].length - 1, nodePressure s i0 inl [o])]
  -- components/nodes/splitter.py 126-143
  | .splitter i outl => .ok [(1, nodeMass s [i] outl), (outl.length, splitEnergy s i outl),
      ([i].length + outl.length - 1, nodePressure s i [] outl)]
  -- components/nodes/separator.py 144-172
  | .separator i outl =>
    let v := varSet s (i :: outl)
    let rest := fun (fl : List String) =>
      [(1, nodeMass s [i] outl), (fl.length, sepFluid s fl i outl),
        (outl.length, sepEnergy F s i outl),
        ([i].length + outl.length - 1, nodePressure s i [] outl)]
    if v.length = 0 then
      match s.fixed i.fl with
      | f :: _ => .ok (rest [f])
      | [] => .error .indexError
    else .ok (rest v)
  -- components/nodes/drum.py 175-201
  | .drum i0 i1 o0 o1 =>
    .ok [(if i1.m = o0.m then 0 else 1, drumMass s i0 i1 o0 o1),
      (1, drumEnergy s i0 i1 o0 o1),
      ([i0, i1].length + [o0, o1].length - 1, nodePressure s i0 [i1] [o0, o1]),
      (2, outletStates F s o0 o1)]
  -- components/nodes/droplet_separator.py 145-168
  | .dropletSeparator i o0 o1 =>
    .ok [(1, nodeMass s [i] [o0, o1]), (1, nodeEnergy s [i] [o0, o1]),
      ([i].length + [o0, o1].length - 1, nodePressure s i [] [o0, o1]),
      (2, outletStates F s o0 o1)]
  -- components/basics/subsystem_interface.py 132-145
  | .subsystemInterface io => .ok [(io.length, eqPressure s io), (io.length, eqEnthalpy s io)]
  -- components/basics/cycle_closer.py 107-120
  | .cycleCloser i o => .ok [(1, eqPressure s [(i, o)]), (1, eqEnthalpy s [(i, o)])]
  -- components/piping/valve.py 156-163
  | .valve i o => .ok [(1, eqEnthalpy s [(i, o)])]
  -- components/heat_exchangers/base.py 299-305
  | .heatExchanger i0 i1 o0 o1 => .ok [(1, hexEnergy s i0 i1 o0 o1)]
  -- components/heat_exchangers/desuperheater.py 184-193
  | .desuperheater i0 i1 o0 o1 => .ok [(1, hexEnergy s i0 i1 o0 o1), (1, desuperSat F s o0)]
  -- components/combustion/base.py 173-202, stoichiometry_func 490-494
  | .combustionChamber i0 i1 o stoich energy =>
    let fl := fluidSet ([i0, i1, o].map (fun c => s.keys c.fl))
    .ok [(1, combMass s i0 i1 o), (2, combPressure s i0 i1 o),
      (fl.length, .vec (fl.map (stoich s))), (1, .scalar (energy s))]
  -- components/combustion/diabatic.py 219-222
  | .diabaticCombustionChamber i0 i1 o stoich =>
    let fl := fluidSet ([i0, i1, o].map (fun c => s.keys c.fl))
    .ok [(1, combMass s i0 i1 o), (fl.length, .vec (fl.map (stoich s)))]
  -- components/combustion/engine.py 287-310
  | .combustionEngine c0 c1 i0 i1 d0 d1 o stoich energy tiP q1 q2 qloss =>
    let fl := fluidSet ([c0, c1, i0, i1, d0, d1, o].map (fun c => s.keys c.fl))
    .ok [(1, combMass s i0 i1 o), (2, combPressure s i0 i1 o),
      (fl.length, .vec (fl.map (stoich s))), (1, .scalar (energy s)),
      (1, .scalar (tiP s)), (1, .scalar (q1 s)), (1, .scalar (q2 s)), (1, .scalar (qloss s))]
  -- components/reactors/water_electrolyzer.py 221-247, gas_temperature_func 313
  | .electrolyzer _ i1 _ o1 o2 ratio energy =>
    .ok [((if s.isVar (.m i1.m) || s.isVar (.m o1.m) then 1 else 0)
          + (if s.isVar (.m i1.m) || s.isVar (.m o2.m) then 1 else 0), elecMass s ratio i1 o1 o2),
      (1, .scalar (energy s)), (2, elecPressure s i1 o1 o2),
      (1, .scalar (s.tv F o1 - s.tv F o2))]
  -- components/reactors/fuel_cell.py 186-206
  | .fuelCell _ i1 i2 _ o1 ratio energy =>
    if s.isVar (.m i1.m) then
      .ok [(1 + 1, cellMass s ratio i1 i2 o1), (1, .scalar (energy s)),
        (2, cellPressure s i1 i2 o1)]
    else .error .indexError
  | .other => .ok []

/-- Number of equations announced by the mandatory constraints (`preprocess`,
components/component.py 342-350). -/
def Dev.announced (F : PropFuncs K) (s : EqState K) (d : Dev K) : PyRes ℕ :=
  match d.constraints F s with
  | .error e => .error e
  | .ok cs => .ok (cs.map Prod.fst).sum

/-- Residuals of the mandatory constraints in the rows of the component (components/component.py 586-593). -/
def Dev.rows (F : PropFuncs K) (s : EqState K) (d : Dev K) : PyRes (List K) :=
  match d.constraints F s with
  | .error e => .error e
  | .ok cs => fillAll cs

/-! ### derivatives -/

/-- Entries written to a Jacobian, in order: row, column, value
(`self.jacobian`, components/component.py 586-602, copied in networks/network.py 2400-2403). -/
abbrev Writes (K : Type) := List (ℕ × Option ℕ × K)

/-- The value at a position after all assignments: the last one counts, 0 if there is none
(Python assignment to a dictionary, read in networks/network.py 2400-2403). -/
def entry (w : Writes K) (r : ℕ) (c : Option ℕ) : K :=
  w.foldl (fun a e => if e.1 = r ∧ e.2.1 = c then e.2.2 else a) 0

/-- `if v.is_var: self.jacobian[k, v.J_col] = x` (the pattern of components/component.py 932-936). -/
def wr (s : EqState K) (k : ℕ) (v : Var) (x : K) : Writes K :=
  if s.isVar v then [(k, s.col v, x)] else []

/-- `NodeBase.mass_flow_deriv` (components/nodes/base.py 71-76) -/
def nodeMassD (s : EqState K) (inl outl : List Port) (k : ℕ) : Writes K :=
  inl.flatMap (fun i => wr s k (.m i.m) 1) ++ outl.flatMap (fun o => wr s k (.m o.m) (-1))

/-- The loop `for eq, o in enumerate(conns)` over a list of connections, from row `k` (components/nodes/base.py 134-143). -/
def enumW (f : ℕ → Port → Writes K) : ℕ → List Port → Writes K
  | _, [] => []
  | k, c :: cs => f k c ++ enumW f (k + 1) cs

/-- `NodeBase.pressure_equality_deriv` (components/nodes/base.py 134-143) -/
def nodePressureD (s : EqState K) (i0 : Port) (inl outl : List Port) (k : ℕ) : Writes K :=
  enumW (fun k c => wr s k (.p i0.p) 1 ++ wr s k (.p c.p) (-1)) k (inl ++ outl)

/-- `DropletSeparator.energy_balance_deriv` (components/nodes/droplet_separator.py 235-245) -/
def nodeEnergyD (s : EqState K) (inl outl : List Port) (k : ℕ) : Writes K :=
  inl.flatMap (fun i => wr s k (.m i.m) (s.hv i) ++ wr s k (.h i.h) (s.mv i))
  ++ outl.flatMap (fun o => wr s k (.m o.m) (-(s.hv o)) ++ wr s k (.h o.h) (-(s.mv o)))

/-- One fluid in `Merge.fluid_deriv` (components/nodes/merge.py 247-255) -/
def mergeFluidD1 (s : EqState K) (inl : List Port) (o : Port) (f : String) (k : ℕ) : Writes K :=
  inl.flatMap (fun i => wr s k (.m i.m) (s.xv i f) ++ wr s k (.x i.fl f) (s.mv i))
  ++ (wr s k (.m o.m) (-(s.xv o f)) ++ wr s k (.x o.fl f) (-(s.mv o)))

/-- One fluid in `Separator.fluid_deriv` (components/nodes/separator.py 272-281) -/
def sepFluidD1 (s : EqState K) (i : Port) (outl : List Port) (f : String) (k : ℕ) : Writes K :=
  outl.flatMap (fun o => wr s k (.m o.m) (-(s.xv o f)) ++ wr s k (.x o.fl f) (-(s.mv o)))
  ++ (wr s k (.m i.m) (s.xv i f) ++ wr s k (.x i.fl f) (s.mv i))

/-- loop over the fluids with `k += 1` (merge.py 246-256, separator.py 271-283) -/
def enumF (f : String → ℕ → Writes K) : ℕ → List String → Writes K
  | _, [] => []
  | k, x :: xs => f x k ++ enumF f (k + 1) xs

/-- `Merge.fluid_deriv` (components/nodes/merge.py 245-256) -/
def mergeFluidD (s : EqState K) (inl : List Port) (o : Port) (k : ℕ) : Writes K :=
  enumF (mergeFluidD1 s inl o) k (s.keys o.fl)

/-- `Separator.fluid_deriv` (components/nodes/separator.py 270-283) -/
def sepFluidD (s : EqState K) (fluids : List String) (i : Port) (outl : List Port) (k : ℕ) :
    Writes K :=
  enumF (sepFluidD1 s i outl) k fluids

/-- `Merge.energy_balance_deriv` (components/nodes/merge.py 311-320) -/
def mergeEnergyD (s : EqState K) (inl : List Port) (o : Port) (k : ℕ) : Writes K :=
  inl.flatMap (fun i => wr s k (.m i.m) (s.hv i) ++ wr s k (.h i.h) (s.mv i))
  ++ (wr s k (.m o.m) (-(s.hv o)) ++ wr s k (.h o.h) (-(s.mv o)))

/-- `Splitter.energy_balance_deriv` (components/nodes/splitter.py 206-210) -/
def splitEnergyD (s : EqState K) (i : Port) (outl : List Port) (k : ℕ) : Writes K :=
  enumW (fun k o => wr s k (.h i.h) 1 ++ wr s k (.h o.h) (-1)) k outl

/-- `Separator.energy_balance_deriv` (components/nodes/separator.py 337-355): the entries for
the outlets are written without asking whether they are variables. -/
def sepEnergyD (F : PropFuncs K) (s : EqState K) (i : Port) (outl : List Port) (k : ℕ) :
    Writes K :=
  enumW (fun k o =>
    wr s k (.p i.p) (F.dTdp (s.xv i) (s.pv i) (s.hv i))
    ++ wr s k (.h i.h) (F.dTdh (s.xv i) (s.pv i) (s.hv i))
    ++ [(k, s.col (.p o.p), -(F.dTdp (s.xv o) (s.pv o) (s.hv o))),
      (k, s.col (.h o.h), -(F.dTdh (s.xv o) (s.pv o) (s.hv o)))]) k outl

/-- `Drum.mass_flow_deriv` (components/nodes/drum.py 241-254) -/
def drumMassD (s : EqState K) (i0 i1 o0 o1 : Port) (k : ℕ) : Writes K :=
  if i1.m = o0.m then wr s k (.m i0.m) 1 ++ wr s k (.m o1.m) (-1)
  else nodeMassD s [i0, i1] [o0, o1] k

/-- `Drum.energy_balance_deriv` (components/nodes/drum.py 298-314) -/
def drumEnergyD (s : EqState K) (i0 i1 o0 o1 : Port) (k : ℕ) : Writes K :=
  if i1.m = o0.m then
    wr s k (.m o0.m) (s.hv i1 - s.hv o0) ++ wr s k (.h i1.h) (s.mv o0)
    ++ wr s k (.h o0.h) (-(s.mv o0))
    ++ wr s k (.m i0.m) (s.hv i0 - s.hv o1) ++ wr s k (.h i0.h) (s.mv i0)
    ++ wr s k (.h o1.h) (-(s.mv o1))
  else nodeEnergyD s [i0, i1] [o0, o1] k

/-- `Component.pressure_equality_deriv` (components/component.py 932-936) -/
def eqPressureD (s : EqState K) : ℕ → List (Port × Port) → Writes K
  | _, [] => []
  | k, c :: cs => wr s k (.p c.1.p) 1 ++ wr s k (.p c.2.p) (-1) ++ eqPressureD s (k + 1) cs

/-- `Component.enthalpy_equality_deriv` (components/component.py 991-995) -/
def eqEnthalpyD (s : EqState K) : ℕ → List (Port × Port) → Writes K
  | _, [] => []
  | k, c :: cs => wr s k (.h c.1.h) 1 ++ wr s k (.h c.2.h) (-1) ++ eqEnthalpyD s (k + 1) cs

/-- `HeatExchanger.energy_balance_deriv` (components/heat_exchangers/base.py 377-384). The
increment filter, which keeps old entries for variables that did not change, is not
modelled. -/
def hexEnergyD (s : EqState K) (i0 i1 o0 o1 : Port) (k : ℕ) : Writes K :=
  wr s k (.m i0.m) (s.hv o0 - s.hv i0) ++ wr s k (.h i0.h) (-(s.mv i0))
  ++ wr s k (.h o0.h) (s.mv i0)
  ++ (wr s k (.m i1.m) (s.hv o1 - s.hv i1) ++ wr s k (.h i1.h) (-(s.mv i1))
  ++ wr s k (.h o1.h) (s.mv i1))

/-- `energy_balance_func` with power or heat (components/turbomachinery/base.py 118-119,
heat_exchangers/simple.py 271-273); `q` is the name of the parameter. -/
def flowEnergy (s : EqState K) (q : String) (i o : Port) : K :=
  s.mv i * (s.hv o - s.hv i) - s.val (.par q)

/-- its derivatives (components/turbomachinery/base.py 152-162, heat_exchangers/simple.py
307-317) -/
def flowEnergyD (s : EqState K) (q : String) (i o : Port) (k : ℕ) : Writes K :=
  wr s k (.m i.m) (s.hv o - s.hv i) ++ wr s k (.h i.h) (-(s.mv i)) ++ wr s k (.h o.h) (s.mv i)
  ++ wr s k (.par q) (-1)

/-- `pr_func` (components/component.py 1030-1031) for parameter `pr` -/
def prFunc (s : EqState K) (pr : String) (i o : Port) : K :=
  s.pv i * s.val (.par pr) - s.pv o

/-- `pr_deriv` (components/component.py 1082-1090). The outlet is `self.outl[inconn]`, the
column of a variable pressure ratio is that of `self.pr` whatever the parameter is: an
`AttributeError` for components without the attribute `pr`. -/
def prDeriv (s : EqState K) (pr : String) (hasPr : Bool) (i : Port) (outl : List Port)
    (inconn : ℕ) (k : ℕ) : PyRes (Writes K) :=
  match outl[inconn]? with
  | none => .error .indexError
  | some o =>
    let w := wr s k (.p i.p) (s.val (.par pr)) ++ wr s k (.p o.p) (-1)
    if s.isVar (.par pr) then
      if hasPr then .ok (w ++ [(k, s.col (.par "pr"), s.pv i)])
      else .error .attributeError
    else .ok w

/-- `dp_func` (components/component.py 1258-1261) -/
def dpFunc (s : EqState K) (dp : String) (i o : Port) : K :=
  s.pv i - s.pv o - s.val (.par dp)

/-- `dp_deriv` (components/component.py 1285-1290): there is no entry for the pressure
difference itself. -/
def dpDeriv (s : EqState K) (i o : Port) (k : ℕ) : Writes K :=
  wr s k (.p i.p) 1 ++ wr s k (.p o.p) (-1)

/-- `DropletSeparator.outlet_states_deriv` (components/nodes/droplet_separator.py 292-306) in
the first iteration. -/
def outletStatesD (F : PropFuncs K) (s : EqState K) (o0 o1 : Port) (k : ℕ) : Writes K :=
  wr s k (.p o0.p) (F.dhPQ (s.xv o0) (s.pv o0) false) ++ wr s k (.h o0.h) (-1)
  ++ wr s (k + 1) (.p o1.p) (F.dhPQ (s.xv o1) (s.pv o1) true) ++ wr s (k + 1) (.h o1.h) (-1)

/-- `WaterElectrolyzer.mass_flow_deriv` (components/reactors/water_electrolyzer.py 773-786) -/
def elecMassD (s : EqState K) (o2 : K) (i1 o1 o2p : Port) (k : ℕ) : Writes K :=
  if s.isVar (.m i1.m) ∨ s.isVar (.m o1.m) then
    wr s k (.m i1.m) o2 ++ wr s k (.m o1.m) (-1)
    ++ (wr s (k + 1) (.m i1.m) (1 - o2) ++ wr s (k + 1) (.m o2p.m) (-1))
  else wr s k (.m i1.m) (1 - o2) ++ wr s k (.m o2p.m) (-1)

/-! ### equations of connections -/

/-- Property functions used by the equations of connections: specific volume, saturation
temperature and enthalpy at vapour quality with their derivatives, and the derivative of the
temperature with respect to a mass fraction (tools/fluid_properties/functions.py 88-250). -/
structure ConnFuncs (K : Type) extends PropFuncs K where
  vol : (String → K) → K → K → K
  dvdp : (String → K) → K → K → K
  dvdh : (String → K) → K → K → K
  tSat : (String → K) → K → K
  dtSat : (String → K) → K → K
  hQ : (String → K) → K → K → K
  dhQ : (String → K) → K → K → K
  dTdx : (String → K) → String → K → K → K

/-- `primary_ref_func` (connections/connection.py 720-727) for the containers `a` of the
connection and `b` of the referenced connection -/
def refFunc (s : EqState K) (a b : Var) (factor delta : K) : K :=
  s.val a - (s.val b * factor + delta)

/-- `primary_ref_deriv` (connections/connection.py 729-736) -/
def refDeriv (s : EqState K) (a b : Var) (factor : K) (k : ℕ) : Writes K :=
  wr s k a 1 ++ wr s k b (-factor)

/-- `T_func` (connections/connection.py 743-744) -/
def tFunc (F : ConnFuncs K) (s : EqState K) (c : Port) (spec : K) : K :=
  s.tv F.toPropFuncs c - spec

/-- `T_deriv` (connections/connection.py 746-758) -/
def tDeriv (F : ConnFuncs K) (s : EqState K) (c : Port) (k : ℕ) : Writes K :=
  wr s k (.p c.p) (F.dTdp (s.xv c) (s.pv c) (s.hv c))
  ++ wr s k (.h c.h) (F.dTdh (s.xv c) (s.pv c) (s.hv c))
  ++ (s.keys c.fl).flatMap (fun f => wr s k (.x c.fl f) (F.dTdx (s.xv c) f (s.pv c) (s.hv c)))

/-- `T_ref_func` (connections/connection.py 760-764) -/
def tRefFunc (F : ConnFuncs K) (s : EqState K) (c d : Port) (factor delta : K) : K :=
  s.tv F.toPropFuncs c - (s.tv F.toPropFuncs d * factor + delta)

/-- `T_ref_deriv` (connections/connection.py 766-782), without the increment filter. The
factor is missing in the entries for the fluids of the referenced connection. -/
def tRefDeriv (F : ConnFuncs K) (s : EqState K) (c d : Port) (factor : K) (k : ℕ) : Writes K :=
  tDeriv F s c k
  ++ wr s k (.p d.p) (-(F.dTdp (s.xv d) (s.pv d) (s.hv d)) * factor)
  ++ wr s k (.h d.h) (-(F.dTdh (s.xv d) (s.pv d) (s.hv d)) * factor)
  ++ (s.keys d.fl).flatMap (fun f => wr s k (.x d.fl f) (-(F.dTdx (s.xv d) f (s.pv d) (s.hv d))))

/-- `v_func` (connections/connection.py 797-798) -/
def vFunc (F : ConnFuncs K) (s : EqState K) (c : Port) (spec : K) : K :=
  F.vol (s.xv c) (s.pv c) (s.hv c) * s.mv c - spec

/-- `v_deriv` (connections/connection.py 800-806): no entries for the fluids -/
def vDeriv (F : ConnFuncs K) (s : EqState K) (c : Port) (k : ℕ) : Writes K :=
  wr s k (.m c.m) (F.vol (s.xv c) (s.pv c) (s.hv c))
  ++ wr s k (.p c.p) (F.dvdp (s.xv c) (s.pv c) (s.hv c) * s.mv c)
  ++ wr s k (.h c.h) (F.dvdh (s.xv c) (s.pv c) (s.hv c) * s.mv c)

/-- `v_ref_func` (connections/connection.py 808-813) -/
def vRefFunc (F : ConnFuncs K) (s : EqState K) (c d : Port) (factor delta : K) : K :=
  F.vol (s.xv c) (s.pv c) (s.hv c) * s.mv c
    - (F.vol (s.xv d) (s.pv d) (s.hv d) * s.mv d * factor + delta)

/-- `v_ref_deriv` (connections/connection.py 815-833) -/
def vRefDeriv (F : ConnFuncs K) (s : EqState K) (c d : Port) (factor : K) (k : ℕ) : Writes K :=
  vDeriv F s c k
  ++ wr s k (.m d.m) (-(F.vol (s.xv d) (s.pv d) (s.hv d) * factor))
  ++ wr s k (.p d.p) (-(F.dvdp (s.xv d) (s.pv d) (s.hv d) * s.mv d * factor))
  ++ wr s k (.h d.h) (-(F.dvdh (s.xv d) (s.pv d) (s.hv d) * s.mv d * factor))

/-- `x_func` (connections/connection.py 841-843) -/
def xFunc (F : ConnFuncs K) (s : EqState K) (c : Port) (spec : K) : K :=
  s.hv c - F.hQ (s.xv c) (s.pv c) spec

/-- `x_deriv` (connections/connection.py 845-849) -/
def xDeriv (F : ConnFuncs K) (s : EqState K) (c : Port) (spec : K) (k : ℕ) : Writes K :=
  wr s k (.p c.p) (-(F.dhQ (s.xv c) (s.pv c) spec)) ++ wr s k (.h c.h) 1

/-- `Td_bp_func` (connections/connection.py 857-865) -/
def tdFunc (F : ConnFuncs K) (s : EqState K) (c : Port) (spec : K) : K :=
  s.tv F.toPropFuncs c - F.tSat (s.xv c) (s.pv c) - spec

/-- `Td_bp_deriv` (connections/connection.py 867-876) -/
def tdDeriv (F : ConnFuncs K) (s : EqState K) (c : Port) (k : ℕ) : Writes K :=
  wr s k (.p c.p) (F.dTdp (s.xv c) (s.pv c) (s.hv c) - F.dtSat (s.xv c) (s.pv c))
  ++ wr s k (.h c.h) (F.dTdh (s.xv c) (s.pv c) (s.hv c))

/-- `fluid_balance_func` (connections/connection.py 878-881) -/
def fluidBalance (s : EqState K) (c : Port) : K :=
  1 - ((s.fixed c.fl).map (s.xv c)).sum - ((s.varFluids c).map (s.xv c)).sum

/-- `fluid_balance_deriv` (connections/connection.py 883-885): the entry is the fraction with
a minus sign -/
def fluidBalanceD (s : EqState K) (c : Port) (k : ℕ) : Writes K :=
  (s.keys c.fl).flatMap (fun f => wr s k (.x c.fl f) (-(s.xv c f)))

end Ring
end Tespy
