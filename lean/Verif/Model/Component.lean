import Mathlib.Logic.Function.Basic
import Mathlib.Algebra.Order.Field.Basic
import Verif.Model.Py
/-
Specifications of a component: data containers (tools/data_containers.py), `Component.set_attr`
(components/component.py 138-265), `preprocess` (329-427) and `solve` (577-602).
-/
namespace Tespy

/-- Kinds of data containers of components (tools/data_containers.py): `ComponentProperties`,
`SimpleDataContainer`, `ComponentCharacteristics`, `ComponentCharacteristicMaps`,
`GroupedComponentProperties`, `GroupedComponentCharacteristics`. -/
inductive DcKind | cp | simple | cc | cm | gcp | gcc
  deriving DecidableEq, Repr

/-- Attribute names of a container, `attr()` (tools/data_containers.py 180-199, 233-240,
291-300, 394-409, 428-442, 557-576). -/
def DcKind.attrs : DcKind → List String
  | .cp => ["val", "val_SI", "is_set", "d", "min_val", "max_val", "is_var", "design", "is_result",
      "num_eq", "func_params", "func", "deriv", "latex"]
  | .simple => ["val", "is_set", "func_params", "func", "deriv", "latex", "num_eq", "_solved"]
  | .cc => ["char_func", "is_set", "param", "func_params", "func", "deriv", "latex", "char_params", "num_eq"]
  | .cm => ["char_func", "is_set", "param", "latex", "func_params", "func", "deriv", "num_eq"]
  | .gcp => ["is_set", "elements", "func", "deriv", "num_eq", "latex", "func_params"]
  | .gcc => ["is_set", "elements", "func", "deriv", "num_eq", "latex", "func_params"]

/-- Python values of attributes. `num none` is nan, `numStr` is a string `float` can read.
Values which are not looked at are `other` with a tag (the cases told apart in components/component.py 163-265). -/
inductive PyV (K : Type)
  | none
  | num (x : Option K)
  | bool (b : Bool)
  | numStr (s : String)
  | str (s : String)
  | list (l : List String)
  | charLine (tag : ℕ)
  | charMap (tag : ℕ)
  | other (tag : ℕ)
  deriving DecidableEq

/-- Argument of `set_attr`: a value or a dictionary (components/component.py 164-221). -/
inductive CArg (K : Type)
  | val (v : PyV K)
  | dict (d : List (String × PyV K))

variable {K : Type}

/-- A data container: its `__dict__` (tools/data_containers.py 20-163). -/
structure Cont (K : Type) where
  kind : DcKind
  attr : String → PyV K

/-- `DataContainer.set_attr` (tools/data_containers.py 101-123): an unknown attribute raises
`KeyError` after the ones before it were applied. -/
def Cont.setAttr (c : Cont K) : List (String × PyV K) → Cont K × Option PyErr
  | [] => (c, none)
  | (k, v) :: es =>
    if k ∈ c.kind.attrs then Cont.setAttr { c with attr := Function.update c.attr k v } es
    else (c, some .keyError)

/-- `float(value)` succeeds (components/component.py 175-179). -/
def PyV.isNumeric : PyV K → Bool
  | .num _ | .bool _ | .numStr _ => true
  | _ => false

/-- One parameter in `Component.set_attr` (components/component.py 166-221). For group
containers a value which is neither `None` nor a dictionary runs through all branches. -/
def Cont.specify (c : Cont K) : CArg K → Cont K × Option PyErr
  | .val .none =>
    let c1 := (c.setAttr [("is_set", .bool false)]).1
    ((c1.setAttr [("is_var", .bool false)]).1, none)
  | .dict d =>
    if c.kind = .simple then c.setAttr [("val", .other 0), ("is_set", .bool true)]
    else c.setAttr d
  | .val v =>
    match c.kind with
    | .cp =>
      if v.isNumeric then
        let c1 := (c.setAttr [("val", v), ("is_set", .bool true)]).1
        c1.setAttr [("is_var", .bool false)]
      else match v with
        | .str "var" => c.setAttr [("is_set", .bool true), ("is_var", .bool true)]
        | _ => (c, some .typeError)
    | .simple => c.setAttr [("val", v), ("is_set", .bool true)]
    | .cc | .cm =>
      match v with
      | .charLine t => ({ c with attr := Function.update c.attr "char_func" (.charLine t) }, none)
      | .charMap t => ({ c with attr := Function.update c.attr "char_func" (.charMap t) }, none)
      | _ => (c, some .typeError)
    | .gcp | .gcc => (c, none)

/-- A component as far as `set_attr` is concerned (components/component.py 122-135).
`param` is the dictionary `self.parameters`. -/
structure Comp (K : Type) where
  param : String → Option (Cont K)
  names : List String
  design : List String
  offdesign : List String
  flag : String → Bool
  text : String → PyV K
  newDesign : Bool

/-- boolean attributes (components/component.py 243-244) -/
def compFlags : List String := ["local_design", "local_offdesign", "printout", "char_warnings"]

/-- One keyword of `Component.set_attr` (components/component.py 164-265). A dictionary for
any other keyword is treated like any other value. -/
def Comp.setKey (c : Comp K) (key : String) (arg : CArg K) : Comp K × Option PyErr :=
  match c.param key with
  | some d =>
    let r := d.specify arg
    ({ c with param := Function.update c.param key (some r.1) }, r.2)
  | none =>
    if key = "design" ∨ key = "offdesign" then
      match arg with
      | .val (.list l) =>
        if l.all (c.names.contains ·) then
          (if key = "design" then { c with design := l } else { c with offdesign := l }, none)
        else (c, some .valueError)
      | _ => (c, some .typeError)
    else if key ∈ compFlags then
      match arg with
      | .val (.bool b) => ({ c with flag := Function.update c.flag key b }, none)
      | _ => (c, some .typeError)
    else if key = "design_path" ∨ key = "fkt_group" then
      match arg with
      | .val v => ({ c with text := Function.update c.text key v, newDesign := true }, none)
      | .dict _ => ({ c with text := Function.update c.text key (.other 0), newDesign := true }, none)
    else (c, some .keyError)

/-- `Component.set_attr` (components/component.py 163-265). -/
def Comp.setAttr (c : Comp K) : List (String × CArg K) → Comp K × Option PyErr
  | [] => (c, none)
  | (k, v) :: kw =>
    match c.setKey k v with
    | (c', none) => c'.setAttr kw
    | (c', some e) => (c', some e)

/-! ### preprocessing and solving -/

/-- Python truth value of the attributes used as flags (`None`, `False`, 0, empty). nan is
true (Python truth value, e.g. components/component.py 352-413). -/
def PyV.truthy [Zero K] [DecidableEq K] : PyV K → Bool
  | .none => false
  | .bool b => b
  | .num (some x) => x ≠ 0
  | .list l => !l.isEmpty
  | .str s => s ≠ ""
  | _ => true

/-- A parameter of a component during the calculation: name, kind, flags, elements of a
group, and number of equations if there is a function (components/component.py 352-413). -/
structure PParam where
  name : String
  kind : DcKind
  isSet : Bool
  isVar : Bool
  elements : List String
  hasFunc : Bool
  numEq : ℕ
  deriving DecidableEq

/-- `self.get_attr(e).is_set`; `none` is the `KeyError` for a name which is not there (components/component.py 360-398). -/
def flagOf (ps : List PParam) (e : String) : Option Bool :=
  (ps.find? (·.name = e)).map (·.isSet)

/-- Lines 386-404: is the group of parameters active? -/
def groupSet (ps : List PParam) (elements : List String) : Bool :=
  elements.all (fun e => (flagOf ps e).getD false)

/-- State of the loop in `preprocess` (components/component.py 338-413). -/
structure Prep where
  params : List PParam
  numEq : ℕ
  vars : List String

/-- One parameter in `preprocess` (components/component.py 352-413). -/
def prepOne (s : Prep) (p : PParam) : Prep :=
  let p' := if p.kind = .gcp then { p with isSet := groupSet s.params p.elements } else p
  { params := s.params.map (fun q => if q.name = p.name then p' else q)
    numEq := if p'.isSet ∧ p'.hasFunc then s.numEq + p'.numEq else s.numEq
    vars := if p.kind = .cp ∧ p.isVar then s.vars ++ [p.name] else s.vars }

/-- `preprocess` (components/component.py 338-413): mandatory constraints with their number
of equations, then the parameters. -/
def preprocess (constraints : List ℕ) (ps : List PParam) : Prep :=
  ps.foldl prepOne ⟨ps, constraints.sum, []⟩

/-- Rows filled by `solve` (components/component.py 586-602), as blocks: first row and number
of rows. -/
def solveRows (constraints : List ℕ) (ps : List PParam) : List (ℕ × ℕ) :=
  let rec cons : ℕ → List ℕ → List (ℕ × ℕ)
    | _, [] => []
    | s, n :: ns => (s, n) :: cons (s + n) ns
  let rec par : ℕ → List PParam → List (ℕ × ℕ)
    | _, [] => []
    | s, p :: ps => if p.isSet ∧ p.hasFunc then (s, p.numEq) :: par (s + p.numEq) ps else par s ps
  cons 0 constraints ++ par constraints.sum ps

end Tespy
