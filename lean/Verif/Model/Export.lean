import Verif.Model.Connection
import Verif.Model.Component
import Verif.Model.NetworkAttr
import Verif.Model.Bus
/-
Export and load of networks: `Network.export` (networks/network.py 152-164, 2668-2802),
the `_serialize` methods (connections/connection.py 574-594, components/component.py 288-303,
connections/bus.py 411-420, tools/data_containers.py, tools/characteristics.py 171-176) and
`load_network` (networks/network_reader.py).

Simplifications: JSON documents are records of the exported values (numbers survive unchanged, JSON
keeps the order of keys); `list(self.is_set)` of a set is the set itself, because its order is
arbitrary and only membership is used. Fluid property wrapper objects are not modelled, creating
them may raise for unknown fluids. The check of the topology at the end of `load_network` is the
same as for the exported network and not repeated here. Characteristics of components are
represented by tags, those of busses by their points.
-/
namespace Tespy

variable {K : Type}

/-! ### network.json -/

/-- `Network._serialize` (networks/network.py 152-164): seven units and three ranges. -/
def netExport (s : NetAttr) : NetKwargs where
  unit
    | .m => some (s.unit .m) | .p => some (s.unit .p) | .h => some (s.unit .h)
    | .T => some (s.unit .T) | .x => some (s.unit .x) | .v => some (s.unit .v)
    | .s => some (s.unit .s) | .vol => none | .Td_bp => none
  range r := some (.list (s.range r))
  iterinfo := none

/-- `_construct_network` (networks/network_reader.py 304-324). -/
def netLoad (d : NetKwargs) : PyRes NetAttr :=
  match NetAttr.init d with
  | (s, none) => .ok s
  | (_, some e) => .error e

/-! ### connections.json -/

/-- `Ref` object; the referenced connection is given by its label (connections/connection.py
1145-1195). -/
structure RefObj (K : Type) where
  obj : String
  factor : K
  delta : K
  deriving DecidableEq

/-- A connection with its attachment, the SI values and units of its properties
(tools/data_containers.py 484-490). `listSet` tells that `fluid.is_set` is a list, not a set. -/
structure EConn (K : Type) where
  source : String
  sourceId : String
  target : String
  targetId : String
  c : Conn K (RefObj K)
  SI : PName → Option K
  unit : PName → Option String
  listSet : Bool

/-- `FluidProperties._serialize` (tools/data_containers.py 502-504). -/
structure PropDoc (K : Type) where
  val : CVal K (RefObj K)
  val0 : CVal K (RefObj K)
  SI : Option K
  isSet : Bool
  unit : Option String

/-- Entry of a connection in connections.json (connections/connection.py 574-594). -/
structure ConnDoc (K : Type) where
  source : String
  target : String
  sourceId : String
  targetId : String
  designPath : CVal K (RefObj K)
  design : List String
  offdesign : List String
  localDesign : Bool
  printout : Bool
  mixingRule : CVal K (RefObj K)
  prop : PName → PropDoc K
  fVal : Dict String (DVal K)
  fSet : Finset String
  engine : Dict String String
  backEnd : Dict String (Option String)
  balance : Bool
  /-- `ReferencedFluidProperties._serialize`: nothing, or `is_set` and the reference
  (tools/data_containers.py 531-540) -/
  ref : RName → Option (Bool × RefObj K)
  stateVal : String
  stateSet : Bool

/-- `json.dump` raises `TypeError` for objects (`json.dump` in networks/network.py 2772-2780). -/
def CVal.jsonable {R : Type} : CVal K R → Bool
  | .other => false
  | .ref _ => false
  | _ => true

/-- `{k: e.__name__ for k, e in self.engine.items()}` (tools/data_containers.py 369). -/
def engineNames : Dict String (DVal K) → PyRes (Dict String String)
  | [] => .ok []
  | (k, .obj n) :: d =>
    match engineNames d with
    | .ok r => .ok ((k, n) :: r)
    | .error e => .error e
  | _ :: _ => .error .attributeError

/-- `Connection._serialize` (connections/connection.py 574-594); `local_design` is listed twice,
`local_offdesign` is missing. -/
def EConn.export (e : EConn K) : PyRes (ConnDoc K) :=
  if e.c.designPath.jsonable ∧ e.c.mixingRule.jsonable then
    match engineNames e.c.fluid.engine with
    | .error er => .error er
    | .ok en => .ok {
        source := e.source
        target := e.target
        sourceId := e.sourceId
        targetId := e.targetId
        designPath := e.c.designPath
        design := e.c.design
        offdesign := e.c.offdesign
        localDesign := e.c.localDesign
        printout := e.c.printout
        mixingRule := e.c.mixingRule
        prop := fun p => ⟨(e.c.prop p).val, (e.c.prop p).val0, e.SI p, (e.c.prop p).isSet, e.unit p⟩
        fVal := e.c.fluid.val
        fSet := e.c.fluid.isSet
        engine := en
        backEnd := e.c.fluid.backEnd
        balance := e.c.balance
        ref := fun r => (e.c.ref r).ref.map (fun o => ((e.c.ref r).isSet, o))
        stateVal := e.c.stateVal
        stateSet := e.c.stateSet }
  else .error .typeError

/-- the name of the default engine (tools/fluid_properties/wrappers.py 123, connections/connection.py 596-609). -/
def coolProp : String := "CoolPropWrapper"

/-- `_create_fluid_wrapper` for the fluids in `fluid.val` (connections/connection.py 596-609). -/
def createWrappers : List String → CFluid K → CFluid K
  | [], f => f
  | n :: ns, f =>
    let f1 := if (Dict.get? f.engine n).isSome then f
      else { f with engine := Dict.set f.engine n (.obj coolProp) }
    createWrappers ns (if (Dict.get? f1.backEnd n).isSome then f1
      else { f1 with backEnd := Dict.set f1.backEnd n none })

/-- First pass of `_construct_connections` (networks/network_reader.py 356-373) for one connection:
`comps` are the labels of the components, `inlets` and `outlets` their connectors, `reg` the
registered engines. -/
def ConnDoc.load (comps : String → Bool) (outlets inlets : String → List String)
    (reg : String → Bool) (d : ConnDoc K) : PyRes (EConn K) :=
  if ¬ (comps d.source ∧ comps d.target) then .error .keyError
  else if d.source = d.target then .error .connectionError
  else if ¬ (d.sourceId ∈ outlets d.source ∧ d.targetId ∈ inlets d.target) then .error .valueError
  else
    match (Conn.new : Conn K (RefObj K)).setAttr [("design_path", d.designPath),
        ("design", .list d.design), ("offdesign", .list d.offdesign),
        ("local_design", .bool d.localDesign), ("printout", .bool d.printout),
        ("mixing_rule", d.mixingRule)] with
    | (_, some e) => .error e
    | (c, none) =>
      if d.engine.all (fun e => reg e.2) then
        .ok {
          source := d.source
          sourceId := d.sourceId
          target := d.target
          targetId := d.targetId
          c := { c with
            prop := fun p => { c.prop p with
              val := (d.prop p).val, val0 := (d.prop p).val0, isSet := (d.prop p).isSet }
            balance := d.balance
            stateVal := d.stateVal
            stateSet := d.stateSet
            fluid := createWrappers d.fVal.keys { c.fluid with
              val := d.fVal, isSet := d.fSet, backEnd := d.backEnd
              engine := d.engine.map (fun e => (e.1, .obj e.2)) } }
          SI := fun p => (d.prop p).SI
          unit := fun p => (d.prop p).unit
          listSet := true }
      else .error .keyError

/-- all connections, first pass (networks/network_reader.py 350-373). -/
def loadConns (comps : String → Bool) (outlets inlets : String → List String)
    (reg : String → Bool) : Dict String (ConnDoc K) → PyRes (Dict String (EConn K))
  | [] => .ok []
  | (l, d) :: ds =>
    match d.load comps outlets inlets reg with
    | .error e => .error e
    | .ok c =>
      match loadConns comps outlets inlets reg ds with
      | .error e => .error e
      | .ok r => .ok ((l, c) :: r)

/-- `arg.replace("_ref", "")` (networks/network_reader.py 375-384). -/
def RName.key : RName → String
  | .m => "m" | .p => "p" | .h => "h" | .T => "T" | .v => "v"

/-- Second pass (networks/network_reader.py 375-384) for one connection: the references in the order
of `property_data`. -/
def loadRefs (labels : List String) (ref : RName → Option (Bool × RefObj K)) :
    List RName → Conn K (RefObj K) → PyRes (Conn K (RefObj K))
  | [], c => .ok c
  | r :: rs, c =>
    match ref r with
    | none => loadRefs labels ref rs c
    | some (_, o) =>
      if o.obj ∈ labels then
        match c.setAttr [(r.key, .ref o)] with
        | (_, some e) => .error e
        | (c', none) => loadRefs labels ref rs c'
      else .error .keyError

/-- the referenced properties in the order of `property_data` (connections/connection.py 691-709). -/
def allRefs : List RName := [.m, .p, .h, .T, .v]

/-- Second pass for all connections; both dictionaries have the same keys in the same order
(networks/network_reader.py 375-384). -/
def loadAllRefs (labels : List String) :
    Dict String (ConnDoc K) → Dict String (EConn K) → PyRes (Dict String (EConn K))
  | (_, d) :: ds, (l, e) :: es =>
    match loadRefs labels d.ref allRefs e.c with
    | .error er => .error er
    | .ok c =>
      match loadAllRefs labels ds es with
      | .error er => .error er
      | .ok r => .ok ((l, { e with c := c }) :: r)
  | _, _ => .ok []

/-- `_construct_connections` (networks/network_reader.py 327-386); `list(data.keys())[0]` raises
`IndexError` without connections. -/
def constructConns (comps : String → Bool) (outlets inlets : String → List String)
    (reg : String → Bool) (data : Dict String (ConnDoc K)) : PyRes (Dict String (EConn K)) :=
  match data with
  | [] => .error .indexError
  | _ :: _ =>
    match loadConns comps outlets inlets reg data with
    | .error e => .error e
    | .ok es => loadAllRefs data.keys data es

/-- `Network.export_connections` (networks/network.py 2772-2780). -/
def exportConns : List (String × EConn K) → PyRes (Dict String (ConnDoc K))
  | [] => .ok []
  | (l, e) :: es =>
    match e.export with
    | .error er => .error er
    | .ok d =>
      match exportConns es with
      | .error er => .error er
      | .ok r => .ok ((l, d) :: r)

/-- `set_attr(fluid={name: fraction})` on a connection, for a fraction that is not `None`: on a
list, `self.fluid.is_set.add` raises after `val` was changed (connections/connection.py 479-484). -/
def EConn.setFluid (e : EConn K) (name : String) (fraction : K) : EConn K × Option PyErr :=
  match splitName name with
  | none => (e, some .valueError)
  | some (b, n) =>
    if e.listSet then
      ({ e with c := { e.c with fluid := { e.c.fluid with
          val := Dict.set e.c.fluid.val n (.num (some fraction)) } } }, some .attributeError)
    else
      ({ e with c := { e.c with fluid := e.c.fluid.entry b n (.num (some fraction)) } }, none)

/-! ### components -/

/-- Attributes written by `_serialize` of the data containers (tools/data_containers.py 162-163,
202-209, 247-254, 308-316, 578-579). -/
def DcKind.saved : DcKind → List String
  | .cp => ["val", "val_SI", "is_set", "d", "min_val", "max_val", "is_var"]
  | .simple => ["val", "is_set"]
  | .cc => ["char_func", "is_set", "param", "char_params"]
  | .cm => ["char_func", "is_set", "param"]
  | .gcp => []
  | .gcc => []

/-- `_serialize` of a container. A characteristic that is neither line nor map has no
`_serialize` (tools/data_containers.py 162-163, 202-209, 247-254, 308-316, 578-579). -/
def Cont.export (c : Cont K) : PyRes (List (String × PyV K)) :=
  match c.kind with
  | .cc | .cm =>
    match c.attr "char_func" with
    | .none => .ok ((c.kind.saved.filter (· ≠ "char_func")).map (fun k => (k, c.attr k)))
    | .charLine _ | .charMap _ => .ok (c.kind.saved.map (fun k => (k, c.attr k)))
    | _ => .error .attributeError
  | _ => .ok (c.kind.saved.map (fun k => (k, c.attr k)))

/-- The keyword arguments of the wrong class: `CharLine(x, y, z)` or `CharMap(x, y, extrapolate)`
(networks/network_reader.py 287-297). -/
def charMismatch : DcKind → Option (PyV K) → Bool
  | .cc, some (.charMap _) => true
  | .cm, some (.charLine _) => true
  | _, _ => false

/-- `_construct_components` for one container (networks/network_reader.py 287-297): building a line
from the data of a map, or a map from the data of a line, raises `TypeError`. -/
def Cont.load (fresh : Cont K) (d : List (String × PyV K)) : PyRes (Cont K) :=
  if charMismatch fresh.kind (Dict.get? d "char_func") then .error .typeError
  else match fresh.setAttr d with
    | (c, none) => .ok c
    | (_, some e) => .error e

/-- Entry of a component in the file of its class (components/component.py 288-303). -/
structure CompDoc (K : Type) where
  design : List String
  offdesign : List String
  flag : String → Bool
  text : String → PyV K
  params : List (String × List (String × PyV K))

/-- the parameters of a component, serialized (components/component.py 288-303). -/
def exportParams (c : Comp K) : List String → PyRes (List (String × List (String × PyV K)))
  | [] => .ok []
  | n :: ns =>
    match c.param n with
    | none => .error .keyError
    | some cont =>
      match cont.export with
      | .error e => .error e
      | .ok d =>
        match exportParams c ns with
        | .error e => .error e
        | .ok r => .ok ((n, d) :: r)

/-- `Component._serialize` (components/component.py 288-303). -/
def Comp.export (c : Comp K) : PyRes (CompDoc K) :=
  match exportParams c c.names with
  | .error e => .error e
  | .ok ps => .ok ⟨c.design, c.offdesign, c.flag, c.text, ps⟩

/-- `_construct_components` (networks/network_reader.py 287-299), parameters -/
def loadParams (c : Comp K) : List (String × List (String × PyV K)) → PyRes (Comp K)
  | [] => .ok c
  | (n, d) :: ps =>
    match c.param n with
    | none => .error .keyError
    | some fresh =>
      match fresh.load d with
      | .error e => .error e
      | .ok cont => loadParams { c with param := Function.update c.param n (some cont) } ps

/-- `_construct_components` for one component: `fresh` is the new instance of the class
(networks/network_reader.py 267-301). -/
def CompDoc.load (fresh : Comp K) (d : CompDoc K) : PyRes (Comp K) :=
  match fresh.setAttr [("design", .val (.list d.design)), ("offdesign", .val (.list d.offdesign)),
      ("local_design", .val (.bool (d.flag "local_design"))),
      ("local_offdesign", .val (.bool (d.flag "local_offdesign"))),
      ("design_path", .val (d.text "design_path")),
      ("printout", .val (.bool (d.flag "printout"))),
      ("fkt_group", .val (d.text "fkt_group")),
      ("char_warnings", .val (.bool (d.flag "char_warnings")))] with
  | (_, some e) => .error e
  | (c, none) => loadParams c d.params

/-- A component of a network: label, class and attributes (networks/network.py 2782-2791). -/
structure ECompRec (K : Type) where
  label : String
  cls : String
  comp : Comp K

/-- the components of one class (networks/network.py 2782-2791), one file -/
def exportFile : List (ECompRec K) → PyRes (List (String × CompDoc K))
  | [] => .ok []
  | r :: rs =>
    match r.comp.export with
    | .error e => .error e
    | .ok d =>
      match exportFile rs with
      | .error e => .error e
      | .ok ds => .ok ((r.label, d) :: ds)

/-- one file per class: `self.comps["comp_type"].unique()` (networks/network.py 2782-2791). -/
def exportFiles (comps : List (ECompRec K)) : List String → PyRes (List (String × List (String × CompDoc K)))
  | [] => .ok []
  | cls :: cs =>
    match exportFile (comps.filter (·.cls = cls)) with
    | .error e => .error e
    | .ok f =>
      match exportFiles comps cs with
      | .error e => .error e
      | .ok fs => .ok ((cls, f) :: fs)

/-- `load_network` (networks/network_reader.py 182-212): the components of one file -/
def loadFile (fresh : String → String → Comp K) (cls : String) :
    List (String × CompDoc K) → Dict String (String × Comp K) → PyRes (Dict String (String × Comp K))
  | [], acc => .ok acc
  | (l, d) :: ds, acc =>
    match d.load (fresh cls l) with
    | .error e => .error e
    | .ok c => loadFile fresh cls ds (Dict.set acc l (cls, c))

/-- The files in the order of `os.listdir`; classes which are not registered are skipped
(networks/network_reader.py 187-212). -/
def loadFiles (registered : String → Bool) (fresh : String → String → Comp K) :
    List (String × List (String × CompDoc K)) → Dict String (String × Comp K) →
    PyRes (Dict String (String × Comp K))
  | [], acc => .ok acc
  | (cls, f) :: fs, acc =>
    if registered cls then
      match loadFile fresh cls f acc with
      | .error e => .error e
      | .ok acc' => loadFiles registered fresh fs acc'
    else loadFiles registered fresh fs acc

/-! ### busses.json -/

/-- A value in the dictionary of a bus: the container `P` or the row of a component; `value` is a
number as written by `Network.save` (connections/bus.py 411-420, networks/network.py 2755-2770). -/
inductive BusEntry (K : Type)
  | P (val : Option K) (isSet : Bool)
  | comp (param : Option String) (base : BusBase) (char : CharLine K)
  | value (x : Option K)

/-- loop of `Bus._serialize` (connections/bus.py 414-418) -/
def busExportRows (lab : ℕ → String) : Dict ℕ (BusRow K) → Dict String (BusEntry K) → Dict String (BusEntry K)
  | [], d => d
  | (i, r) :: rs, d => busExportRows lab rs (Dict.set d (lab i) (.comp r.param r.base r.char))

/-- `Bus._serialize` (connections/bus.py 411-420): components are stored by their label, next to
the entry "P". -/
def Bus.export (lab : ℕ → String) (b : Bus K) : Dict String (BusEntry K) :=
  busExportRows lab b.comps [("P", .P b.pVal b.pSet)]

/-- `Network.save_busses` (networks/network.py 2755-2770) for one bus: the design value of each
component, written to the same file busses.json as the export. -/
def Bus.saved (lab : ℕ → String) (design : ℕ → Option K) (b : Bus K) : Dict String (BusEntry K) :=
  b.comps.map (fun e => (lab e.1, .value (design e.1)))

/-- name of a base (connections/bus.py 392-399, 414-418). -/
def BusBase.name : BusBase → String
  | .component => "component" | .bus => "bus"

/-- the value of `param` read from the file (networks/network_reader.py 412-419). -/
def paramVal : Option String → BVal K
  | some s => .str s
  | none => .none

variable [Field K] [LinearOrder K]

/-- components of a bus (networks/network_reader.py 412-419); `comps` finds a component by its
label. -/
def busLoadRows (comps : String → Option ℕ) : Dict String (BusEntry K) → Bus K → PyRes (Bus K)
  | [], b => .ok b
  | (l, e) :: es, b =>
    if l = "P" then busLoadRows comps es b
    else match e with
      | .P _ _ => .error .keyError
      | .value _ => .error .typeError
      | .comp param base char =>
        match CharLine.init char.x char.y char.extrapolate with
        | .error er => .error er
        | .ok ch =>
          match comps l with
          | none => .error .keyError
          | some i =>
            match b.addComps [some [("comp", .comp i),
                ("param", paramVal param),
                ("base", .str base.name), ("char", .char ch)]] with
            | (b', none) => busLoadRows comps es b'
            | (_, some er) => .error er

/-- `_construct_busses` (networks/network_reader.py 389-421) for one bus. The container `P` does not
accept the attributes of a component (`KeyError`). -/
def busLoad (comps : String → Option ℕ) (d : Dict String (BusEntry K)) : PyRes (Bus K) :=
  match Dict.get? d "P" with
  | none => .error .keyError
  | some (.comp _ _ _) => .error .keyError
  | some (.value _) => .error .typeError
  | some (.P v s) => busLoadRows comps d { (Bus.new : Bus K) with pVal := v, pSet := s }

end Tespy
