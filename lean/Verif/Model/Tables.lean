import Mathlib.Data.List.Dedup
import Verif.Model.Py
/-
The tables of a network: connections, components, busses, user defined
equations and results (networks/network.py 405-710).
-/
namespace Tespy

/-- A component object: identity, label, class name and the connector names it
declares (`inlets()`, `outlets()`). Python compares components by identity (components/component.py 102-135). -/
structure CompObj where
  id : ℕ
  label : String
  ctype : String
  inlets : List String
  outlets : List String
  deriving DecidableEq, Repr

/-- A connection object (connections/connection.py 232-256). -/
structure ConnObj where
  id : ℕ
  label : String
  source : CompObj
  sourceId : String
  target : CompObj
  targetId : String
  deriving DecidableEq, Repr

/-- A bus or a user defined equation: identity and label (connections/bus.py 178-200, tools/helpers.py 300-337). -/
structure LabObj where
  id : ℕ
  label : String
  deriving DecidableEq, Repr

/-- State of the tables. `conns` and `comps` are the dataframes (index = label),
`busses` and `udes` the dictionaries, `results` the keys of the results
dictionary, `checked` the flag; `checkedConns` is the list of connections the
branch data (`massflow_branches`, `inl`/`outl` lists, ...) was built from by the
last successful `check_network` (networks/network.py 166-204). -/
structure NetTab where
  conns : List ConnObj := []
  comps : Dict String CompObj := []
  busses : Dict String LabObj := []
  udes : Dict String LabObj := []
  results : List String := []
  checked : Bool := false
  checkedConns : Option (List ConnObj) := none

/-- Result of a call: state and exception
(Python call, exceptions stop it and changes stay, e.g. networks/network.py 405-442). -/
abbrev Call (σ : Type) := σ × Option PyErr

/-- Components at the ends of connections: `{cp for c in args for cp in
[c.source, c.target]}` (networks/network.py 454, 521). The order of a Python set is
arbitrary; the model uses the order of first occurrence, the theorems do not
depend on it. -/
def endpoints (cs : List ConnObj) : List CompObj :=
  (cs.flatMap (fun c => [c.source, c.target])).dedup

/-- `Network._add_comps` (networks/network.py 521-542). Two components are the same
iff they are the same object (`id`). -/
def addComps : List CompObj → NetTab → Call NetTab
  | [], s => (s, none)
  | cp :: cps, s =>
    match s.comps.get? cp.label with
    | some other => if other = cp then addComps cps s else (s, some .networkError)
    | none => addComps cps { s with comps := s.comps.set cp.label cp }

/-- First loop of `Network.add_conns` (networks/network.py 415-441). `none` as
argument stands for an object which is not a `Connection`. -/
def addConnRows : List (Option ConnObj) → NetTab → Call NetTab
  | [], s => (s, none)
  | none :: _, s => (s, some .typeError)
  | some c :: cs, s =>
    if c.label ∈ s.conns.map ConnObj.label then (s, some .valueError)
    else addConnRows cs { s with conns := s.conns ++ [c], checked := false }

/-- `Network.add_conns` (networks/network.py 405-442). -/
def NetTab.addConns (s : NetTab) (args : List (Option ConnObj)) : Call NetTab :=
  match addConnRows args s with
  | (s1, some e) => (s1, some e)
  | (s1, none) => addComps (endpoints (args.filterMap id)) s1

/-- Loop of `Network.del_conns` (networks/network.py 455-462): rows are dropped by
label, `KeyError` for unknown labels. -/
def delConnRows : List ConnObj → NetTab → Call NetTab
  | [], s => (s, none)
  | c :: cs, s =>
    if c.label ∈ s.conns.map ConnObj.label then
      delConnRows cs { s with conns := s.conns.filter (fun d => d.label ≠ c.label) }
    else (s, some .keyError)

/-- `Network._del_comps` (networks/network.py 544-567): a component without connection
is dropped by label; `self.results[comp_type]` is a `KeyError` if no results table
of this type exists (it is created by `init_components`). -/
def delComps : List CompObj → NetTab → Call NetTab
  | [], s => (s, none)
  | cp :: cps, s =>
    if cp ∉ s.conns.map ConnObj.source ∧ cp ∉ s.conns.map ConnObj.target then
      if cp.label ∈ s.comps.keys then
        let s' := { s with comps := s.comps.erase cp.label }
        if cp.ctype ∈ s.results then delComps cps s' else (s', some .keyError)
      else (s, some .keyError)
    else delComps cps s

/-- `Network.del_conns` (networks/network.py 444-467). -/
def NetTab.delConns (s : NetTab) (args : List ConnObj) : Call NetTab :=
  match delConnRows args s with
  | (s1, some e) => (s1, some e)
  | (s1, none) =>
    match delComps (endpoints args) s1 with
    | (s2, some e) => (s2, some e)
    | (s2, none) => ({ s2 with checked := false }, none)

/-- `Network.add_ude` (networks/network.py 579-599); `none` is a wrong type. -/
def addUdeLoop : List (Option LabObj) → NetTab → Call NetTab
  | [], s => (s, none)
  | none :: _, s => (s, some .typeError)
  | some u :: us, s =>
    if u.label ∈ s.udes.keys then (s, some .valueError)
    else addUdeLoop us { s with udes := s.udes.set u.label u }

/-- `Network.del_ude` (networks/network.py 611-614). -/
def delUdeLoop : List LabObj → NetTab → Call NetTab
  | [], s => (s, none)
  | u :: us, s =>
    if u.label ∈ s.udes.keys then delUdeLoop us { s with udes := s.udes.erase u.label }
    else (s, some .keyError)

/-- `Network.add_busses` with `check_busses` (networks/network.py 626-638, 672-689). -/
def addBusLoop : List (Option LabObj) → NetTab → Call NetTab
  | [], s => (s, none)
  | none :: _, s => (s, some .typeError)
  | some b :: bs, s =>
    if b ∈ s.busses.map Prod.snd then (s, some .networkError)
    else if b.label ∈ s.busses.keys then (s, some .networkError)
    else addBusLoop bs { s with
      busses := s.busses.set b.label b
      results := if b.label ∈ s.results then s.results else s.results ++ [b.label] }

/-- `Network.del_busses` (networks/network.py 650-656): only busses which are in the
network are deleted, others are ignored; `del self.results[b.label]` is a
`KeyError` if the results table is missing. -/
def delBusLoop : List LabObj → NetTab → Call NetTab
  | [], s => (s, none)
  | b :: bs, s =>
    if b ∈ s.busses.map Prod.snd then
      let s' := { s with busses := s.busses.erase b.label }
      if b.label ∈ s.results then
        delBusLoop bs { s' with results := s'.results.filter (· ≠ b.label) }
      else (s', some .keyError)
    else delBusLoop bs s

/-- Result tables created by `init_components` (networks/network.py 784-791). -/
def withResultTables (s : NetTab) : NetTab :=
  let tables := List.foldl (fun r t => if t ∈ r then r else r ++ [t]) s.results
    (s.comps.map (fun kc => kc.2.ctype))
  { s with results := tables }

/-- `Network.check_network` (networks/network.py 691-710) with the outcome of the
individual checks as a parameter `chk` (modelled in `Verif.Model.Topology`):
`init_components` runs before the later checks can fail. -/
def NetTab.checkNetwork (chk : NetTab → Option PyErr) (s : NetTab) : Call NetTab :=
  if s.conns = [] then (s, some .networkError)
  else
    let s' := withResultTables s
    match chk s with
    | some e => (s', some e)
    | none => ({ s' with checked := true, checkedConns := some s.conns }, none)

/-- Start of `Network.solve` (networks/network.py 1943-1944): the network is checked
if it is not marked as checked. -/
def NetTab.solveStart (chk : NetTab → Option PyErr) (s : NetTab) : Call NetTab :=
  if s.checked then (s, none) else s.checkNetwork chk

/-- Calls of the user (networks/network.py 405-467, 569-656, 1852). -/
inductive TabOp
  | addConns (args : List (Option ConnObj))
  | delConns (args : List ConnObj)
  | addUde (args : List (Option LabObj))
  | delUde (args : List LabObj)
  | addBusses (args : List (Option LabObj))
  | delBusses (args : List LabObj)
  | solve

/-- One call (calls of networks/network.py 405-467, 569-656, 1852). -/
def NetTab.step (chk : NetTab → Option PyErr) (s : NetTab) : TabOp → Call NetTab
  | .addConns args => s.addConns args
  | .delConns args => s.delConns args
  | .addUde args => addUdeLoop args s
  | .delUde args => delUdeLoop args s
  | .addBusses args => addBusLoop args s
  | .delBusses args => delBusLoop args s
  | .solve => s.solveStart chk

/-- A history; exceptions are caught by the user (calls of networks/network.py 405-467, 569-656, 1852). -/
def NetTab.run (chk : NetTab → Option PyErr) (s : NetTab) : List TabOp → NetTab
  | [] => s
  | op :: ops => NetTab.run chk (s.step chk op).1 ops

end Tespy
