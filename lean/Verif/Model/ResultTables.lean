import Mathlib.Algebra.BigOperators.Group.List.Basic
import Verif.Model.Tables

/-!
The tables of results of a network, `Network.results`: created when connections, components and busses are registered and
when a calculation starts, filled by the postprocessing, reduced when connections or components are deleted
(networks/network.py 457-460, 559-565, 626-656, 784-791, 1183-1194, 2459-2531).

Simplifications: only columns with numbers (no units, no phase); the cells of a row are written at once, so that a row is
complete or missing if an exception occurs in between; values are elements of `K`, nan is `none`.
-/
namespace Tespy

variable {K : Type}

/-- A data frame: names of the columns and rows by label (networks/network.py 508-542, 632-637). -/
structure RTable (K : Type) where
  cols : List String
  rows : Dict String (List (Option K))

/-- A parameter of a component after `calc_parameters` (tools/data_containers.py 226-259). -/
structure RParam (K : Type) where
  val : Option K
  hasFunc : Bool
  isSet : Bool
  isResult : Bool

/-- networks/network.py 2497-2501: what is written to the cell of a parameter. -/
def RParam.cell (p : RParam K) : Option K :=
  if p.hasFunc || (!p.hasFunc && p.isSet) || p.isResult then p.val else none

/-- networks/network.py 2509-2528: component value, bus value, efficiency and design value of a component on a bus. -/
structure BusVals (K : Type) where
  comp : Option K
  bus : Option K
  eff : Option K
  design : Option K

/-- `result = [cmp_val, bus_val, eff, design_value]` (networks/network.py 2528) -/
def BusVals.row (v : BusVals K) : List (Option K) := [v.comp, v.bus, v.eff, v.design]

/-- The values a calculation leaves: columns of the table of connections (all fluid properties and all fluids) and values of
connections by object; exception of `calc_parameters` and parameters by component (`none`: no attribute of that name);
values by bus and component (networks/network.py 2459-2531). -/
structure PostData (K : Type) where
  connCols : List String
  conn : ConnObj → String → Option K
  calcErr : CompObj → Option PyErr
  param : CompObj → String → Option (RParam K)
  bus : LabObj → CompObj → PyRes (BusVals K)

/-- How a call of `Network.solve` ends (networks/network.py 1935-2012): exception before the table of connections is created,
exception after that, end without postprocessing (initialisation only, singular matrix, no progress), postprocessing. -/
inductive SolveStop
  | early (e : PyErr)
  | late (e : PyErr)
  | noPost
  | post

/-- Tables of a network together with the tables of results. `cols` are the columns of a component class (parameters of
type `dc_cp`), `busComps` the components of a bus (by object), `total` is `P.val` of a bus
(networks/network.py 166-204, 405-689). -/
structure ResNet (K : Type) where
  conns : List ConnObj := []
  comps : Dict String CompObj := []
  busses : Dict String LabObj := []
  tables : Dict String (RTable K) := []
  checked : Bool := false
  busComps : LabObj → List CompObj := fun _ => []
  total : LabObj → Option K := fun _ => none

/-- The registration tables (Model/Tables.lean) (networks/network.py 166-204). -/
def ResNet.tab (r : ResNet K) : NetTab :=
  { conns := r.conns, comps := r.comps, busses := r.busses, results := r.tables.keys, checked := r.checked }

/-- `Network.add_conns`, `_add_comps` (networks/network.py 405-442, 508-542): no table of results is touched. -/
def ResNet.addConns (r : ResNet K) (args : List (Option ConnObj)) : Call (ResNet K) :=
  ({ r with conns := (r.tab.addConns args).1.conns, comps := (r.tab.addConns args).1.comps,
            checked := (r.tab.addConns args).1.checked }, (r.tab.addConns args).2)

/-- `self.results[key].drop(label, errors="ignore")` (networks/network.py 455-462, 544-567). -/
def dropRow (t : Dict String (RTable K)) (key label : String) : Dict String (RTable K) :=
  t.map (fun kv => if kv.1 = key then (kv.1, { kv.2 with rows := kv.2.rows.filter (fun e => e.1 ≠ label) }) else kv)

/-- Loop of `Network.del_conns` (networks/network.py 455-462). -/
def rDelConnRows : List ConnObj → ResNet K → Call (ResNet K)
  | [], r => (r, none)
  | c :: cs, r =>
    if c.label ∈ r.conns.map ConnObj.label then
      rDelConnRows cs { r with conns := r.conns.filter (fun d => d.label ≠ c.label),
                               tables := dropRow r.tables "Connection" c.label }
    else (r, some .keyError)

/-- `Network._del_comps` (networks/network.py 544-567). -/
def rDelComps : List CompObj → ResNet K → Call (ResNet K)
  | [], r => (r, none)
  | cp :: cps, r =>
    if cp ∉ r.conns.map ConnObj.source ∧ cp ∉ r.conns.map ConnObj.target then
      if cp.label ∈ r.comps.keys then
        if cp.ctype ∈ r.tables.keys then
          rDelComps cps { r with comps := r.comps.erase cp.label, tables := dropRow r.tables cp.ctype cp.label }
        else ({ r with comps := r.comps.erase cp.label }, some .keyError)
      else (r, some .keyError)
    else rDelComps cps r

/-- `Network.del_conns` (networks/network.py 444-467). -/
def ResNet.delConns (r : ResNet K) (args : List ConnObj) : Call (ResNet K) :=
  match rDelConnRows args r with
  | (r1, some e) => (r1, some e)
  | (r1, none) =>
    match rDelComps (endpoints args) r1 with
    | (r2, some e) => (r2, some e)
    | (r2, none) => ({ r2 with checked := false }, none)

/-- networks/network.py 632-637: columns of the table of a bus. -/
def busCols : List String := ["component value", "bus value", "efficiency", "design value"]

/-- `Network.add_busses` (networks/network.py 626-638, 672-689): an existing table of that name is replaced. -/
def rAddBus : List (Option LabObj) → ResNet K → Call (ResNet K)
  | [], r => (r, none)
  | none :: _, r => (r, some .typeError)
  | some b :: bs, r =>
    if b ∈ r.busses.map Prod.snd then (r, some .networkError)
    else if b.label ∈ r.busses.keys then (r, some .networkError)
    else rAddBus bs { r with busses := r.busses.set b.label b, tables := r.tables.set b.label ⟨busCols, []⟩ }

/-- `Network.del_busses` (networks/network.py 650-656). -/
def rDelBus : List LabObj → ResNet K → Call (ResNet K)
  | [], r => (r, none)
  | b :: bs, r =>
    if b ∈ r.busses.map Prod.snd then
      if b.label ∈ r.tables.keys then
        rDelBus bs { r with busses := r.busses.erase b.label, tables := r.tables.erase b.label }
      else ({ r with busses := r.busses.erase b.label }, some .keyError)
    else rDelBus bs r

/-- `Bus.add_comps` (connections/bus.py 313-322): the row of the component is appended or replaced. -/
def ResNet.busAdd (r : ResNet K) (b : LabObj) (cp : CompObj) : ResNet K :=
  { r with busComps := fun b' =>
      if b' = b then (if cp ∈ r.busComps b then r.busComps b else r.busComps b ++ [cp]) else r.busComps b' }

/-- networks/network.py 784-791: missing tables of the classes of the components are created. -/
def addTypeTables (cols : String → List String) : List String → Dict String (RTable K) → Dict String (RTable K)
  | [], t => t
  | ty :: tys, t =>
    if ty ∈ t.keys then addTypeTables cols tys t else addTypeTables cols tys (t.set ty ⟨cols ty, []⟩)

/-- `Network.check_network` if necessary (networks/network.py 691-710, 1943-1944). -/
def ResNet.start (cols : String → List String) (chk : NetTab → Option PyErr) (r : ResNet K) : Call (ResNet K) :=
  if r.checked then (r, none)
  else if r.conns = [] then (r, some .networkError)
  else match chk r.tab with
    | some e => ({ r with tables := addTypeTables cols (r.comps.map (fun kc => kc.2.ctype)) r.tables }, some e)
    | none => ({ r with tables := addTypeTables cols (r.comps.map (fun kc => kc.2.ctype)) r.tables,
                        checked := true }, none)

/-- `self.results[key].loc[label] = row`: `KeyError` without table, `ValueError` if the number of columns differs
(networks/network.py 2482-2485, 2528). -/
def writeRow (t : Dict String (RTable K)) (key label : String) (row : List (Option K)) :
    Dict String (RTable K) × Option PyErr :=
  match t.get? key with
  | none => (t, some .keyError)
  | some tb =>
    if row.length = tb.cols.length then (t.set key { tb with rows := tb.rows.set label row }, none)
    else (t, some .valueError)

/-- `process_connections` (networks/network.py 2468-2485). -/
def processConns (d : PostData K) : List ConnObj → Dict String (RTable K) → Dict String (RTable K) × Option PyErr
  | [], t => (t, none)
  | c :: cs, t => match writeRow t "Connection" c.label (d.connCols.map (d.conn c)) with
    | (t', some e) => (t', some e)
    | (t', none) => processConns d cs t'

/-- networks/network.py 2495-2501: the cells of a component, `KeyError` if it has no attribute with the name of a column. -/
def compRow (param : String → Option (RParam K)) : List String → PyRes (List (Option K))
  | [] => .ok []
  | c :: cs => match param c with
    | none => .error .keyError
    | some p => match compRow param cs with
      | .error e => .error e
      | .ok l => .ok (p.cell :: l)

/-- `process_components` (networks/network.py 2487-2501). -/
def processComps (d : PostData K) : List CompObj → Dict String (RTable K) → Dict String (RTable K) × Option PyErr
  | [], t => (t, none)
  | cp :: cps, t => match d.calcErr cp with
    | some e => (t, some e)
    | none => match t.get? cp.ctype with
      | none => (t, some .keyError)
      | some tb => match compRow (d.param cp) tb.cols with
        | .error e => (t, some e)
        | .ok row => match writeRow t cp.ctype cp.label row with
          | (t', some e) => (t', some e)
          | (t', none) => processComps d cps t'

/-- networks/network.py 2507-2529: the components of one bus. -/
def rProcessBus (d : PostData K) (b : LabObj) : List CompObj → Dict String (RTable K) → Dict String (RTable K) × Option PyErr
  | [], t => (t, none)
  | cp :: cps, t => match d.bus b cp with
    | .error e => (t, some e)
    | .ok v => match writeRow t b.label cp.label v.row with
      | (t', some e) => (t', some e)
      | (t', none) => rProcessBus d b cps t'

/-- `self.results[b.label]['bus value']`: the second column of the table of a bus (networks/network.py 2530-2531). -/
def busColumn (tb : RTable K) : PyRes (List (Option K)) :=
  if tb.cols = busCols then .ok (tb.rows.map (fun e => (e.2[1]?).getD none)) else .error .keyError

variable [AddCommMonoid K]

/-- `pandas.Series.sum`: nan is skipped (networks/network.py 2530-2531). -/
def sumSkip (l : List (Option K)) : K := (l.filterMap id).sum

/-- `process_busses` (networks/network.py 2503-2531). -/
def processBusses (d : PostData K) : List LabObj → ResNet K → Call (ResNet K)
  | [], r => (r, none)
  | b :: bs, r => match rProcessBus d b (r.busComps b) r.tables with
    | (t, some e) => ({ r with tables := t }, some e)
    | (t, none) => match t.get? b.label with
      | none => ({ r with tables := t }, some .keyError)
      | some tb => match busColumn tb with
        | .error e => ({ r with tables := t }, some e)
        | .ok l => processBusses d bs { r with tables := t, total := Function.update r.total b (some (sumSkip l)) }

/-- `Network.postprocessing` (networks/network.py 2459-2466). -/
def ResNet.postprocess (d : PostData K) (r : ResNet K) : Call (ResNet K) :=
  match processConns d r.conns r.tables with
  | (t, some e) => ({ r with tables := t }, some e)
  | (t, none) => match processComps d (r.comps.map Prod.snd) t with
    | (t', some e) => ({ r with tables := t' }, some e)
    | (t', none) => processBusses d (r.busses.map Prod.snd) { r with tables := t' }

/-- `Network.solve` (networks/network.py 1935-2012): the table of connections is created anew (1183-1194). -/
def ResNet.solve (cols : String → List String) (chk : NetTab → Option PyErr) (d : PostData K) (stop : SolveStop)
    (r : ResNet K) : Call (ResNet K) :=
  match r.start cols chk with
  | (r1, some e) => (r1, some e)
  | (r1, none) => match stop with
    | .early e => (r1, some e)
    | .late e => ({ r1 with tables := r1.tables.set "Connection" ⟨d.connCols, []⟩ }, some e)
    | .noPost => ({ r1 with tables := r1.tables.set "Connection" ⟨d.connCols, []⟩ }, none)
    | .post => ResNet.postprocess d { r1 with tables := r1.tables.set "Connection" ⟨d.connCols, []⟩ }

/-- Calls of the user (networks/network.py 405-467, 616-656, 1852; connections/bus.py 277). -/
inductive ResOp (K : Type)
  | addConns (args : List (Option ConnObj))
  | delConns (args : List ConnObj)
  | addBusses (args : List (Option LabObj))
  | delBusses (args : List LabObj)
  | busAdd (b : LabObj) (cp : CompObj)
  | solve (d : PostData K) (stop : SolveStop)

/-- One call (calls of networks/network.py 405-467, 616-656, 1852 and connections/bus.py 277). -/
def ResNet.step (cols : String → List String) (chk : NetTab → Option PyErr) (r : ResNet K) : ResOp K → Call (ResNet K)
  | .addConns args => r.addConns args
  | .delConns args => r.delConns args
  | .addBusses args => rAddBus args r
  | .delBusses args => rDelBus args r
  | .busAdd b cp => (r.busAdd b cp, none)
  | .solve d stop => r.solve cols chk d stop

/-- A history; exceptions are caught by the user
(calls of networks/network.py 405-467, 616-656, 1852 and connections/bus.py 277). -/
def ResNet.run (cols : String → List String) (chk : NetTab → Option PyErr) (r : ResNet K) : List (ResOp K) → ResNet K
  | [] => r
  | op :: ops => ResNet.run cols chk (r.step cols chk op).1 ops

end Tespy
