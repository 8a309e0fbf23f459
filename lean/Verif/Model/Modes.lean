import Mathlib.Logic.Function.Basic
import Verif.Model.Presolve
import Verif.Model.Component
/-
Switching between design and off-design calculations: `Network.initialise`, `init_design`,
`init_offdesign`, `init_offdesign_params`, `init_set_properties` (networks/network.py 836-905,
1141-1184, 1227-1659) and the values written back after a calculation
(`reset_topology_reduction_specifications`, `Connection.calc_results`).
-/
namespace Tespy.Modes

/-- A container of a connection: the connection which created it and the name of the property. The
attribute `c.m` may refer to the container of another connection of the branch
(networks/network.py 970-1024, 1126-1134). -/
abbrev Addr := ℕ × String

/-- Content of a container (tools/data_containers.py 496-514, 529-542). `none` is nan. -/
structure PCont (K : Type) where
  isSet : Bool
  val : Option K
  valSI : Option K
  design : Option K
  deriving DecidableEq

/-- Settings of a connection made by the user. `path` means: `design_path` is given (connections/connection.py 252-276). -/
structure CSet where
  design : List String
  offdesign : List String
  localDesign : Bool
  localOffdesign : Bool
  path : Bool

/-- The network: connections in the order of the table, mass flow branches, settings, and the
object of `m_ref` of a connection (networks/network.py 836-905). -/
structure Net where
  conns : List ℕ
  branches : List (List ℕ)
  cs : ℕ → CSet
  refObj : ℕ → Option ℕ

/-- What survives between two calculations. `newDesign` are the flags of the connections,
`compNew` tells if a component has the flag, `path` is `design_path` of the last calculation
(networks/network.py 836-905, 1852-2012). -/
structure St (K : Type) where
  cont : Addr → PCont K
  redesign : Bool
  newDesign : ℕ → Bool
  compNew : Bool
  path : Option String

/-- Properties with containers of type `FluidProperties`: the containers which have values and a
design value. `m_ref`, `p_ref`, ... and `fluid_balance` have none (connections/connection.py 673-709). -/
def propKeys : List String := ["m", "p", "h", "vol", "s", "T", "v", "x", "Td_bp"]

/-- `f"{var}_ref"`, if it is in `property_data` (networks/network.py 1254-1259). -/
def refKey : String → Option String
  | "m" => some "m_ref" | "p" => some "p_ref" | "h" => some "h_ref" | "T" => some "T_ref"
  | "v" => some "v_ref" | _ => none

variable {K : Type}

/-- `c.m_ref.ref.obj`, if `c.m_ref.is_set` (networks/network.py 986-987) -/
def mref (N : Net) (f : Addr → PCont K) (c : ℕ) : Option ℕ :=
  if (f (c, "m_ref")).isSet then N.refObj c else none

/-- `presolve_massflow_topology` on the containers of this network: the connection whose container
`c.m` refers to. Before, all connections have their own container (networks/network.py 970-1024). -/
def owner (N : Net) (f : Addr → PCont K) : PyRes (ℕ → ℕ) :=
  match MHeap.presolve (mref N f) N.branches
      (⟨fun i => ⟨(f (i, "m")).isSet, (), (), ""⟩, id, fun _ => none⟩ : MHeap Unit) with
  | (H, none) => .ok H.ref
  | (_, some e) => .error e

/-- `c.get_attr(key)` (networks/network.py 1003-1004). -/
def addr (o : ℕ → ℕ) (c : ℕ) (key : String) : Addr :=
  if key = "m" then (o c, "m") else (c, key)

/-- `init_set_properties` (networks/network.py 1148-1184): values in SI units of the specified
properties. The containers not in use are not specified. -/
def setProps (toSI : String → K → K) (f : Addr → PCont K) : Addr → PCont K :=
  fun a => if (f a).isSet ∧ a.2 ∈ propKeys then { f a with valSI := (f a).val.map (toSI a.2) } else f a

/-- `c.get_attr(var).is_set = b` (networks/network.py 1254-1259, 1597-1601). -/
def setFlag (o : ℕ → ℕ) (c : ℕ) (b : Bool) (f : Addr → PCont K) (key : String) : Addr → PCont K :=
  Function.update f (addr o c key) { f (addr o c key) with isSet := b }

/-- for all names of a list (networks/network.py 1254-1259, 1285-1289) -/
def setFlags (o : ℕ → ℕ) (c : ℕ) (b : Bool) (f : Addr → PCont K) (keys : List String) : Addr → PCont K :=
  keys.foldl (setFlag o c b) f

/-- `c.get_attr(var).design = x` (networks/network.py 1515-1528). -/
def setDesign (o : ℕ → ℕ) (c : ℕ) (d : String → Option K) (f : Addr → PCont K) (key : String) :
    Addr → PCont K :=
  Function.update f (addr o c key) { f (addr o c key) with design := d key }

/-- `init_conn_design_params` (networks/network.py 1515-1528); `d` are the values of the file in SI
units. Simplified: `vol` is taken from the file as well. -/
def setDesigns (o : ℕ → ℕ) (c : ℕ) (d : String → Option K) (f : Addr → PCont K) : Addr → PCont K :=
  propKeys.foldl (setDesign o c d) f

/-- Loop variables: containers, flags and the variables of the connections found so far (networks/network.py 1239-1294). -/
structure Loop (K : Type) where
  cont : Addr → PCont K
  newDesign : ℕ → Bool
  vars : List Addr

/-- `_assign_variable_space` (networks/network.py 1208-1225). Simplified: `simplify_specifications`
(C28) is left out, it removes a variable and an equation at the same time. -/
def assign (o : ℕ → ℕ) (c : ℕ) (L : Loop K) : Loop K :=
  { L with vars := ["m", "p", "h"].foldl (fun vs k =>
      if (L.cont (addr o c k)).isSet = false ∧ addr o c k ∉ vs then vs ++ [addr o c k] else vs) L.vars }

/-- One connection in `init_design` (networks/network.py 1239-1294). -/
def designConn (N : Net) (o : ℕ → ℕ) (redesign : Bool) (file : ℕ → String → Option K) (c : ℕ) (L : Loop K) :
    PyRes (Loop K) :=
  if (N.cs c).localOffdesign then
    if (N.cs c).path then
      .ok (assign o c { L with
        cont := setDesigns o c (file c)
          (setFlags o c true (setFlags o c false L.cont (N.cs c).design) (N.cs c).offdesign) })
    else .error .networkError
  else
    let f := ["m", "p", "h"].foldl (setDesign o c (fun _ => none)) L.cont
    let f := if redesign then setFlags o c false (setFlags o c true f (N.cs c).design) (N.cs c).offdesign else f
    .ok (assign o c { L with cont := f, newDesign := Function.update L.newDesign c true })

/-- `init_design`, connections (networks/network.py 1239-1294). -/
def designConns (N : Net) (o : ℕ → ℕ) (redesign : Bool) (file : ℕ → String → Option K) :
    List ℕ → Loop K → PyRes (Loop K)
  | [], L => .ok L
  | c :: cs, L =>
    match designConn N o redesign file c L with
    | .error e => .error e
    | .ok L' => designConns N o redesign file cs L'

/-- One name of `c.design` in `init_offdesign` (networks/network.py 1590-1595) -/
def unsetKey (o : ℕ → ℕ) (c : ℕ) (f : Addr → PCont K) (key : String) : Addr → PCont K :=
  match refKey key with
  | some r => setFlag o c false (setFlag o c false f key) r
  | none => setFlag o c false f key

/-- The names of `c.offdesign` in `init_offdesign` (networks/network.py 1597-1601):
`param.val_SI = param.design` raises `AttributeError` if the container has no design value. -/
def setKeys (o : ℕ → ℕ) (c : ℕ) : List String → (Addr → PCont K) → PyRes (Addr → PCont K)
  | [], f => .ok f
  | k :: ks, f =>
    if k ∈ propKeys then
      setKeys o c ks (Function.update f (addr o c k)
        { f (addr o c k) with isSet := true, valSI := (f (addr o c k)).design })
    else .error .attributeError

/-- One connection in `init_offdesign` (networks/network.py 1586-1608). -/
def offdesignConn (N : Net) (o : ℕ → ℕ) (c : ℕ) (L : Loop K) : PyRes (Loop K) :=
  if (N.cs c).localDesign then .ok (assign o c L)
  else
    match setKeys o c (N.cs c).offdesign ((N.cs c).design.foldl (unsetKey o c) L.cont) with
    | .error e => .error e
    | .ok f => .ok (assign o c { L with cont := f, newDesign := Function.update L.newDesign c false })

/-- `init_offdesign`, connections (networks/network.py 1586-1608). -/
def offdesignConns (N : Net) (o : ℕ → ℕ) : List ℕ → Loop K → PyRes (Loop K)
  | [], L => .ok L
  | c :: cs, L =>
    match offdesignConn N o c L with
    | .error e => .error e
    | .ok L' => offdesignConns N o cs L'

/-- A calculation asked for: mode, `design_path`, the files with design values (of the network and
individual ones) and what the solver finds: `res` are the values of the containers, `tdErr` tells
whether the difference to the boiling point cannot be calculated
(networks/network.py 1852-2012: the arguments of `solve`). -/
structure Job (K : Type) where
  offdesign : Bool
  path : Option String
  file : ℕ → String → Option K
  res : Addr → Option K
  tdErr : ℕ → Bool

/-- `self.new_design` (networks/network.py 1904-1917) -/
def newDesign (N : Net) (s : St K) (path : Option String) : Bool :=
  if s.path = path ∧ path.isSome then N.conns.any s.newDesign || s.compNew else true

/-- `Network.initialise` (networks/network.py 877-902) as far as it concerns the connections, with
the variables of the connections. -/
def initialise (toSI : String → K → K) (N : Net) (s : St K) (j : Job K) : PyRes ((ℕ → ℕ) × Loop K) :=
  match owner N s.cont with
  | .error e => .error e
  | .ok o =>
    let L : Loop K := ⟨setProps toSI s.cont, s.newDesign, []⟩
    if j.offdesign then
      if j.path.isNone then .error .networkError
      else
        let L := if newDesign N s j.path then
          { L with cont := N.conns.foldl (fun f c => setDesigns o c (j.file c) f) L.cont } else L
        match offdesignConns N o N.conns L with
        | .error e => .error e
        | .ok L => .ok (o, L)
    else
      match designConns N o s.redesign j.file N.conns L with
      | .error e => .error e
      | .ok L => .ok (o, L)

/-- Values after the solver and `calc_results` (connections/connection.py 903-963): specified `m`,
`p`, `h` are no variables; `x` and `Td_bp` are calculated if they are not specified; `x` is nan if
the calculation of `Td_bp` fails; all others are calculated. -/
def solved (j : Job K) (a : Addr) (b : PCont K) : PCont K :=
  if a.2 ∈ ["m", "p", "h"] then
    if b.isSet then b else { b with valSI := j.res a }
  else if a.2 = "x" then
    if b.isSet = false then { b with valSI := if j.tdErr a.1 then none else j.res a }
    else if j.tdErr a.1 then { b with valSI := none } else b
  else if a.2 = "Td_bp" then
    if b.isSet || j.tdErr a.1 then b else { b with valSI := j.res a }
  else if a.2 ∈ propKeys then { b with valSI := j.res a }
  else b

/-- `reset_topology_reduction_specifications` (networks/network.py 1126-1134, see C18): every
connection gets its own container with the value of the one in use. -/
def resetM (N : Net) (o : ℕ → ℕ) (f : Addr → PCont K) : Addr → PCont K :=
  fun a => if a.2 = "m" ∧ a.1 ∈ N.conns then { f a with valSI := (f (o a.1, "m")).valSI } else f a

/-- values in the units of the network (connections/connection.py 955-958) -/
def writeVals (fromSI : String → K → K) (N : Net) (f : Addr → PCont K) : Addr → PCont K :=
  fun a => if a.2 ∈ propKeys ∧ a.1 ∈ N.conns then { f a with val := (f a).valSI.map (fromSI a.2) } else f a

/-- A completed calculation. `compNew`: after a design calculation components have `new_design`, after
an off-design calculation they have not (networks/network.py 1349-1357, 1649, components/component.py
799-800). Simplified: networks with components which all have `local_offdesign` are left out. -/
def run (toSI fromSI : String → K → K) (N : Net) (s : St K) (j : Job K) : PyRes (St K) :=
  match initialise toSI N s j with
  | .error e => .error e
  | .ok (o, L) => .ok {
      cont := writeVals fromSI N (resetM N o (fun a => solved j a (L.cont a)))
      redesign := s.redesign || j.offdesign
      newDesign := L.newDesign
      compNew := !j.offdesign
      path := j.path }

/-- A sequence of calculations (calls of networks/network.py 1852-2012). -/
def runs (toSI fromSI : String → K → K) (N : Net) : St K → List (Job K) → PyRes (St K)
  | s, [] => .ok s
  | s, j :: js =>
    match run toSI fromSI N s j with
    | .error e => .error e
    | .ok s' => runs toSI fromSI N s' js

/-! ### components -/

/-- `cp.get_attr(var).is_set = b` for all names of a list (networks/network.py 1307-1376). -/
def setParams (b : Bool) (names : List String) (ps : List PParam) : List PParam :=
  ps.map (fun p => if p.name ∈ names then { p with isSet := b } else p)

/-- Settings of a component (components/component.py 122-135). -/
structure CpSet where
  design : List String
  offdesign : List String
  localDesign : Bool
  localOffdesign : Bool

/-- A component in `init_design` (networks/network.py 1307-1376), flags of the parameters and
`preprocess`. -/
def designComp (q : CpSet) (redesign : Bool) (constraints : List ℕ) (ps : List PParam) : Prep :=
  preprocess constraints
    (if q.localOffdesign then setParams true q.offdesign (setParams false q.design ps)
     else if redesign then setParams false q.offdesign (setParams true q.design ps)
     else ps)

/-- A component in `init_offdesign` (networks/network.py 1613-1652). -/
def offdesignComp (q : CpSet) (constraints : List ℕ) (ps : List PParam) : Prep :=
  preprocess constraints
    (if q.localDesign then ps else setParams true q.offdesign (setParams false q.design ps))

end Tespy.Modes
