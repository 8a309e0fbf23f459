import Mathlib.Algebra.Order.Field.Basic
import Mathlib.Data.Finset.Basic
import Mathlib.Logic.Function.Basic
import Verif.Model.Py
/-
Specifications of a connection: `Connection.set_attr` (connections/connection.py 313-551),
`simplify_specifications` (627-671), `preprocess` (611-625) and the variable space of the
connection (networks/network.py 1208-1225).
-/
namespace Tespy

/-- Fluid properties of a connection, `get_parameters` (connections/connection.py
673-690). -/
inductive PName | m | p | h | vol | s | T | v | x | Td_bp
  deriving DecidableEq, Repr

/-- Referenced properties `m_ref`, `p_ref`, `h_ref`, `T_ref`, `v_ref`
(connections/connection.py 691-709). -/
inductive RName | m | p | h | T | v
  deriving DecidableEq, Repr

/-- Does `f"{key}_ref" in self.property_data` hold for a property? (connections/connection.py 673-709). -/
def PName.ref : PName → Option RName
  | .m => some .m
  | .p => some .p
  | .h => some .h
  | .T => some .T
  | .v => some .v
  | _ => none

/-- `key in ["m", "p", "h"]` (connections/connection.py 512-551). -/
def PName.primary : PName → Bool
  | .m | .p | .h => true
  | _ => false

/-- Values in dictionaries passed by the user: `None`, a number (`none` is nan) or another
object, for example the class of a fluid property engine (connections/connection.py 464-510). -/
inductive DVal (K : Type)
  | none
  | num (x : Option K)
  | obj (name : String)
  deriving DecidableEq

/-- Python values passed to `set_attr`. `numStr` are strings `float` can read, `str` all
other strings. `ref` is a `Ref` object, `R` are the objects (the cases told apart in connections/connection.py 399-551). -/
inductive CVal (K R : Type)
  | none
  | num (x : Option K)
  | bool (b : Bool)
  | numStr (s : String)
  | str (s : String)
  | list (l : List String)
  | dict (d : Dict String (DVal K))
  | ref (r : R)
  | other
  deriving DecidableEq

variable {K R : Type}

/-- `float(value)` succeeds (connections/connection.py 513-517). -/
def CVal.isNumeric : CVal K R → Bool
  | .num _ | .bool _ | .numStr _ => true
  | _ => false

/-- `FluidProperties` container (tools/data_containers.py 445-504). -/
structure PBox (K R : Type) where
  val : CVal K R
  val0 : CVal K R
  isSet : Bool
  isVar : Bool

/-- `ReferencedFluidProperties` container (tools/data_containers.py 507-529). -/
structure RBox (R : Type) where
  ref : Option R
  isSet : Bool

/-- `FluidComposition` container (tools/data_containers.py 319-364). -/
structure CFluid (K : Type) where
  val : Dict String (DVal K)
  val0 : Dict String (DVal K)
  isSet : Finset String
  isVar : Finset String
  backEnd : Dict String (Option String)
  engine : Dict String (DVal K)

/-- A connection as far as `set_attr` is concerned (connections/connection.py 252-276). -/
structure Conn (K R : Type) where
  prop : PName → PBox K R
  ref : RName → RBox R
  fluid : CFluid K
  balance : Bool
  stateVal : String
  stateSet : Bool
  design : List String
  offdesign : List String
  designPath : CVal K R
  newDesign : Bool
  printout : Bool
  localDesign : Bool
  localOffdesign : Bool
  mixingRule : CVal K R

/-- A new connection (connections/connection.py 252-276). -/
def Conn.new : Conn K R where
  prop := fun p => ⟨.num none, .num none, false, p.primary⟩
  ref := fun _ => ⟨none, false⟩
  fluid := ⟨[], [], ∅, ∅, [], []⟩
  balance := false
  stateVal := ""
  stateSet := false
  design := []
  offdesign := []
  designPath := .none
  newDesign := true
  printout := true
  localDesign := false
  localOffdesign := false
  mixingRule := .none

/-- Changing one property container, connections/connection.py 512-551. -/
def Conn.setProp (c : Conn K R) (p : PName) (b : PBox K R) : Conn K R :=
  { c with prop := Function.update c.prop p b }
/-- Changing one container of a reference, connections/connection.py 512-551. -/
def Conn.setRef (c : Conn K R) (r : RName) (b : RBox R) : Conn K R :=
  { c with ref := Function.update c.ref r b }

/-- names in `property_data` of the plain properties (connections/connection.py 673-690). -/
def pTable : List (String × PName) :=
  [("m", .m), ("p", .p), ("h", .h), ("vol", .vol), ("s", .s), ("T", .T), ("v", .v), ("x", .x),
    ("Td_bp", .Td_bp)]
/-- names in `property_data` of the references (connections/connection.py 691-709). -/
def rTable : List (String × RName) :=
  [("m_ref", .m), ("p_ref", .p), ("h_ref", .h), ("T_ref", .T), ("v_ref", .v)]
/-- the names of starting values, `property_data0` (connections/connection.py 399-462). -/
def p0Table : List (String × PName) := pTable.map (fun e => (e.1 ++ "0", e.2))
/-- The names of starting values of the references, connections/connection.py 399-462. -/
def r0Table : List (String × RName) := rTable.map (fun e => (e.1 ++ "0", e.2))
/-- `self.property_data.keys()` (connections/connection.py 673-710) -/
def propertyData : List String :=
  ["m", "p", "h", "vol", "s", "fluid", "fluid_balance", "T", "v", "x", "Td_bp", "m_ref", "p_ref",
    "h_ref", "T_ref", "v_ref"]

/-- Kind of a keyword, in the order of the `if` chain in `set_attr` (connections/connection.py
400-462). -/
inductive CKey
  | label
  | fluid (key : String)
  | prop (p : PName)
  | ref (r : RName)
  | prop0 (p : PName)
  | ref0 (r : RName)
  | state
  | design
  | offdesign
  | designPath
  | printout
  | localDesign
  | localOffdesign
  | mixingRule
  | unknown
  deriving DecidableEq

/-- substring test (Python's `in` for strings, connections/connection.py 400-462). -/
def isSubstr (a : List Char) : List Char → Bool
  | [] => a.isEmpty
  | c :: l => a.isPrefixOf (c :: l) || isSubstr a l

/-- `'fluid' in key` (connections/connection.py 400-462). -/
def hasFluid (key : String) : Bool := isSubstr ['f', 'l', 'u', 'i', 'd'] key.toList

/-- The branch of `set_attr` a keyword leads to, connections/connection.py 400-462. -/
def CKey.parse (key : String) : CKey :=
  if key = "label" then .label
  else if hasFluid key then .fluid key
  else match Dict.get? pTable key with
  | some p => .prop p
  | none => match Dict.get? rTable key with
  | some r => .ref r
  | none => match Dict.get? p0Table key with
  | some p => .prop0 p
  | none => match Dict.get? r0Table key with
  | some r => .ref0 r
  | none =>
    if key = "state" then .state
    else if key = "design" then .design
    else if key = "offdesign" then .offdesign
    else if key = "design_path" then .designPath
    else if key = "printout" then .printout
    else if key = "local_design" then .localDesign
    else if key = "local_offdesign" then .localOffdesign
    else if key = "mixing_rule" then .mixingRule
    else .unknown

/-- `name.split("::")` (connections/connection.py 470-473). -/
def splitColons : List Char → List (List Char)
  | [] => [[]]
  | ':' :: ':' :: r => [] :: splitColons r
  | c :: r => match splitColons r with
    | x :: xs => (c :: x) :: xs
    | [] => [[c]]

/-- Split a fluid name at "::", `none` is the `ValueError` of `back_end, fluid =
fluid.split("::")` for more than two parts (connections/connection.py 470-473). -/
def splitName (name : String) : Option (Option String × String) :=
  match splitColons name.toList with
  | [_] => some (none, name)
  | [b, f] => some (some (String.ofList b), String.ofList f)
  | _ => none

/-- One entry of the fluid specification after splitting the name
(connections/connection.py 475-484). -/
def CFluid.entry (f : CFluid K) (backEnd : Option String) (fluid : String) (fraction : DVal K) : CFluid K :=
  if fraction matches .none then
    { f with isSet := f.isSet.erase fluid, isVar := insert fluid f.isVar }
  else
    { f with
      val := Dict.set f.val fluid fraction
      isSet := insert fluid f.isSet
      isVar := f.isVar.erase fluid
      backEnd := Dict.set f.backEnd fluid backEnd }

/-- Lines 469-484: all entries of the dictionary; the entries before a failing one stay. -/
def CFluid.entries : List (String × DVal K) → CFluid K → CFluid K × Option PyErr
  | [], f => (f, none)
  | (name, x) :: es, f =>
    match splitName name with
    | none => (f, some .valueError)
    | some (b, n) => CFluid.entries es (f.entry b n x)

/-- `dict.update` (Python's `dict.update`, connections/connection.py 464-510). -/
def dictUpdate : Dict String (DVal K) → List (String × DVal K) → Dict String (DVal K)
  | d, [] => d
  | d, (k, v) :: es => dictUpdate (Dict.set d k v) es

/-- `_fluid_specification` (connections/connection.py 464-510). -/
def Conn.fluidSpec (c : Conn K R) (key : String) (value : CVal K R) : Conn K R × Option PyErr :=
  if key = "fluid_balance" then
    match value with
    | .bool b => ({ c with balance := b }, none)
    | _ => (c, some .typeError)
  else
    match value with
    | .dict d =>
      if key = "fluid" then
        let r := c.fluid.entries d
        ({ c with fluid := r.1 }, r.2)
      else if key = "fluid0" then
        ({ c with fluid := { c.fluid with val0 := dictUpdate c.fluid.val0 d } }, none)
      else if key = "fluid_engines" then
        ({ c with fluid := { c.fluid with engine := d } }, none)
      else (c, some .keyError)
    | _ => (c, some .typeError)

/-- `_parameter_specification` (connections/connection.py 512-551) for a key which is a
plain property. -/
def Conn.paramProp (c : Conn K R) (p : PName) (value : CVal K R) : Conn K R × Option PyErr :=
  match value with
  | .none =>
    let c := c.setProp p { c.prop p with isSet := false, isVar := if p.primary then true else (c.prop p).isVar }
    match p.ref with
    | some r => (c.setRef r { c.ref r with isSet := false }, none)
    | none => (c, none)
  | .ref r =>
    match p.ref with
    | some q => (c.setRef q ⟨some r, true⟩, none)
    | none => (c, some .attributeError)
  | v =>
    if v.isNumeric then
      (c.setProp p { c.prop p with isSet := true, val := v, isVar := if p.primary then false else (c.prop p).isVar }, none)
    else (c, some .typeError)

/-- `_parameter_specification` for a key `m_ref`, `p_ref`, ... A number sets `is_set` and
then raises the `KeyError` of the container for `val` (tools/data_containers.py 110-123).
A `Ref` raises `NotImplementedError` (`attributeError` here). -/
def Conn.paramRef (c : Conn K R) (r : RName) (value : CVal K R) : Conn K R × Option PyErr :=
  match value with
  | .none => (c.setRef r { c.ref r with isSet := false }, none)
  | .ref _ => (c, some .attributeError)
  | v => if v.isNumeric then (c.setRef r { c.ref r with isSet := true }, some .keyError) else (c, some .typeError)

/-- `_parameter_specification` for a starting value. `None` raises `KeyError` from
`get_attr` (connections/connection.py 512-551). -/
def Conn.paramProp0 (c : Conn K R) (p : PName) (value : CVal K R) : Conn K R × Option PyErr :=
  match value with
  | .none => (c, some .keyError)
  | .ref _ => (c, some .attributeError)
  | v => if v.isNumeric then (c.setProp p { c.prop p with val0 := v }, none) else (c, some .typeError)

/-- `m_ref0` and so on: a number raises the `KeyError` of the container
(connections/connection.py 512-551, tools/data_containers.py 101-123). -/
def Conn.paramRef0 (c : Conn K R) (value : CVal K R) : Conn K R × Option PyErr :=
  match value with
  | .ref _ => (c, some .attributeError)
  | v => if v.isNumeric ∨ v matches .none then (c, some .keyError) else (c, some .typeError)

/-- One keyword argument of `set_attr` (connections/connection.py 400-462). -/
def Conn.setKey (c : Conn K R) (key : String) (value : CVal K R) : Conn K R × Option PyErr :=
  match CKey.parse key with
  | .label => (c, some .connectionError)
  | .fluid k => c.fluidSpec k value
  | .prop p => c.paramProp p value
  | .ref r => c.paramRef r value
  | .prop0 p => c.paramProp0 p value
  | .ref0 _ => c.paramRef0 value
  | .state =>
    match value with
    | .none => ({ c with stateSet := false }, none)
    | .str s => if s = "l" ∨ s = "g" then ({ c with stateVal := s, stateSet := true }, none) else (c, some .typeError)
    | _ => (c, some .typeError)
  | .design =>
    match value with
    | .list l => if l.all (propertyData.contains ·) then ({ c with design := l }, none) else (c, some .valueError)
    | _ => (c, some .typeError)
  | .offdesign =>
    match value with
    | .list l => if l.all (propertyData.contains ·) then ({ c with offdesign := l }, none) else (c, some .valueError)
    | _ => (c, some .typeError)
  | .designPath => ({ c with designPath := value, newDesign := true }, none)
  | .printout => match value with | .bool b => ({ c with printout := b }, none) | _ => (c, some .typeError)
  | .localDesign => match value with | .bool b => ({ c with localDesign := b }, none) | _ => (c, some .typeError)
  | .localOffdesign => match value with | .bool b => ({ c with localOffdesign := b }, none) | _ => (c, some .typeError)
  | .mixingRule => ({ c with mixingRule := value }, none)
  | .unknown => (c, some .keyError)

/-- `Connection.set_attr(**kwargs)` (connections/connection.py 399-462): one keyword after
the other; an exception leaves the changes made before. -/
def Conn.setAttr (c : Conn K R) : List (String × CVal K R) → Conn K R × Option PyErr
  | [] => (c, none)
  | (k, v) :: kw =>
    match c.setKey k v with
    | (c', none) => c'.setAttr kw
    | (c', some e) => (c', some e)

/-! ### simplification of specifications -/

/-- Fluid property functions of the connection's fluid (connections/connection.py 651-667);
each may raise. -/
structure FluidFuncs (K : Type) where
  h_pT : K → K → PyRes K
  h_pQ : K → K → PyRes K
  T_sat : K → PyRes K
  p_sat : K → PyRes K

/-- Containers of one connection when `simplify_specifications` is called: flags and SI
values. `TdVal` is `Td_bp.val`, the value in the unit chosen by the user (connections/connection.py 627-671). -/
structure SimpState (K : Type) where
  isSet : PName → Bool
  refSet : RName → Bool
  balance : Bool
  solved : PName → Bool
  SI : PName → K
  TdVal : K

/-- properties counted in lines 630-638 -/
def countedSpecs : List PName := [.m, .p, .h, .T, .v, .x, .Td_bp]

/-- `simplify_specifications` (connections/connection.py 627-671). -/
def simplify [Add K] (F : FluidFuncs K) (s : SimpState K) : SimpState K × Option PyErr :=
  if (countedSpecs.filter (s.isSet ·)).length > 3 then (s, some .networkError)
  else if s.isSet .h = false ∧ s.isSet .p = true then
    if s.isSet .T then
      match F.h_pT (s.SI .p) (s.SI .T) with
      | .error e => (s, some e)
      | .ok h => ({ s with SI := Function.update s.SI .h h
                           solved := fun q => if q = .h ∨ q = .T then true else s.solved q }, none)
    else if s.isSet .Td_bp then
      match F.T_sat (s.SI .p) with
      | .error e => (s, some e)
      | .ok Ts =>
        match F.h_pT (s.SI .p) (Ts + s.TdVal) with
        | .error e => (s, some e)
        | .ok h => ({ s with SI := Function.update s.SI .h h
                             solved := fun q => if q = .h ∨ q = .Td_bp then true else s.solved q }, none)
    else if s.isSet .x then
      match F.h_pQ (s.SI .p) (s.SI .x) with
      | .error e => (s, some e)
      | .ok h => ({ s with SI := Function.update s.SI .h h
                           solved := fun q => if q = .h ∨ q = .x then true else s.solved q }, none)
    else (s, none)
  else if s.isSet .h = false ∧ s.isSet .p = false then
    if s.isSet .T = true ∧ s.isSet .x = true then
      match F.p_sat (s.SI .T) with
      | .error e => (s, some e)
      | .ok p =>
        let s1 := { s with SI := Function.update s.SI .p p }
        match F.h_pQ p (s.SI .x) with
        | .error e => (s1, some e)
        | .ok h => ({ s1 with SI := Function.update s1.SI .h h
                              solved := fun q => if q = .T ∨ q = .x ∨ q = .p ∨ q = .h then true else s.solved q }, none)
    else (s, none)
  else (s, none)

/-- Free variables of the connection: `_assign_variable_space` (networks/network.py
1209-1225) for containers which are not shared; the flag `_solved` of an unset container is
removed. -/
def connVars (s : SimpState K) : List PName × SimpState K :=
  (([.m, .p, .h] : List PName).filter (fun k => s.isSet k = false ∧ s.solved k = false),
    { s with solved := fun k => if k.primary ∧ s.isSet k = false then false else s.solved k })

/-- Equations of the connection: `preprocess` (connections/connection.py 611-622). The
references are never `_solved`. -/
inductive ConnEq | balance | prop (p : PName) | ref (r : RName)
  deriving DecidableEq
/-- `preprocess`: equations of a connection, connections/connection.py 611-622. -/
def connEqs (s : SimpState K) : List ConnEq × SimpState K :=
  ((if s.balance then [ConnEq.balance] else []) ++
      (([.T, .v, .x, .Td_bp] : List PName).filter (fun k => s.isSet k = true ∧ s.solved k = false)).map .prop ++
      (([.m, .p, .h, .T, .v] : List RName).filter (fun k => s.refSet k)).map .ref,
    { s with solved := fun k =>
        if k ∈ ([.T, .v, .x, .Td_bp] : List PName) ∧ s.solved k then false else s.solved k })

end Tespy
