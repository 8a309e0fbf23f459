import Mathlib.Data.Rat.Defs
import Verif.Model.Units
/-
Units and value ranges of a network: `Network.set_defaults` and
`Network.set_attr` (networks/network.py 152-326).
-/
namespace Tespy

/-- Properties with a value range (networks/network.py 205-225). -/
inductive RangeProp | m | p | h
  deriving DecidableEq, Repr

/-- The fluid property of a value range (networks/network.py 290-312). -/
def RangeProp.prop : RangeProp → FluidProp
  | .m => .m | .p => .p | .h => .h

/-- The value of `iterinfo`: a bool or anything else (networks/network.py 324-326). -/
inductive IterInfo | bool (b : Bool) | other
  deriving DecidableEq, Repr

/-- Attributes of a network which `set_attr` handles (networks/network.py 205-225). -/
structure NetAttr where
  unit : FluidProp → String
  rangeSI : RangeProp → List ℚ
  range : RangeProp → List ℚ
  iterinfo : IterInfo

/-- A range argument: a list of numbers or a value which is not a list (networks/network.py 290-312). -/
inductive RangeArg | list (l : List ℚ) | other
  deriving DecidableEq, Repr

/-- Keyword arguments of `set_attr`; unknown keywords are ignored by the code and
not represented (networks/network.py 234-326). -/
structure NetKwargs where
  unit : FluidProp → Option String := fun _ => none
  range : RangeProp → Option RangeArg := fun _ => none
  iterinfo : Option IterInfo := none

/-- `Network.set_defaults` (networks/network.py 209-225). The non-SI ranges are
created by the first `set_attr` in `__init__`. -/
def NetAttr.defaults : NetAttr where
  unit := siUnit
  rangeSI
    | .m => [-1000000000000, 1000000000000]
    | .p => [200, 30000000]
    | .h => [1000, 7000000]
  range := fun _ => []
  iterinfo := .bool true

/-- Keys of `fluid_property_data` in dictionary order (tools/global_vars.py 17-102). -/
def fpdKeys : List FluidProp := [.m, .v, .p, .h, .T, .Td_bp, .vol, .x, .s]

/-- Unit loop of `set_attr` (networks/network.py 276-288): units which come before an
invalid one are already applied when `ValueError` is raised. -/
def applyUnits (kw : FluidProp → Option String) :
    List FluidProp → NetAttr → NetAttr × Option PyErr
  | [], s => (s, none)
  | prop :: ps, s =>
    match kw prop with
    | none => applyUnits kw ps s
    | some u =>
      if ((unitTable prop).get? u).isSome then
        applyUnits kw ps { s with unit := fun q => if q = prop then u else s.unit q }
      else (s, some .valueError)

/-- List comprehension `[convert_to_SI(prop, value, unit) for value in l]` (networks/network.py 292-297). -/
def listToSI (prop : FluidProp) (unit : String) : List ℚ → PyRes (List ℚ)
  | [] => .ok []
  | v :: l => do
    let a ← convertToSI prop v unit
    let as ← listToSI prop unit l
    .ok (a :: as)

/-- List comprehension `[convert_from_SI(prop, value, unit) for value in l]` (networks/network.py 314-322). -/
def listFromSI (prop : FluidProp) (unit : String) : List ℚ → PyRes (List ℚ)
  | [] => .ok []
  | v :: l => do
    let a ← convertFromSI prop v unit
    let as ← listFromSI prop unit l
    .ok (a :: as)

/-- Range loop of `set_attr` (networks/network.py 290-312). `limits[0]`, `limits[1]`
in the log message raise `IndexError` for lists with less than two values. -/
def applyRanges (kw : RangeProp → Option RangeArg) :
    List RangeProp → NetAttr → NetAttr × Option PyErr
  | [], s => (s, none)
  | prop :: ps, s =>
    match kw prop with
    | none => applyRanges kw ps s
    | some .other => (s, some .typeError)
    | some (.list l) =>
      match listToSI prop.prop (s.unit prop.prop) l with
      | .error e => (s, some e)
      | .ok si =>
        let s' := { s with rangeSI := fun q => if q = prop then si else s.rangeSI q }
        if si.length < 2 then (s', some .indexError) else applyRanges kw ps s'

/-- Update of the displayed ranges (networks/network.py 314-322). -/
def updateRanges : List RangeProp → NetAttr → NetAttr × Option PyErr
  | [], s => (s, none)
  | prop :: ps, s =>
    match listFromSI prop.prop (s.unit prop.prop) (s.rangeSI prop) with
    | .error e => (s, some e)
    | .ok r => updateRanges ps { s with range := fun q => if q = prop then r else s.range q }

/-- Lines 324-329: `iterinfo` is stored before its type is checked. -/
def applyIterinfo (kw : Option IterInfo) (s : NetAttr) : NetAttr × Option PyErr :=
  let s' := { s with iterinfo := kw.getD s.iterinfo }
  match s'.iterinfo with
  | .bool _ => (s', none)
  | .other => (s', some .typeError)

/-- `Network.set_attr` (networks/network.py 234-329): the state after the call and
the exception, if one is raised. -/
def NetAttr.setAttr (s : NetAttr) (kw : NetKwargs) : NetAttr × Option PyErr :=
  match applyUnits kw.unit fpdKeys s with
  | (s1, some e) => (s1, some e)
  | (s1, none) =>
    match applyRanges kw.range [.m, .p, .h] s1 with
    | (s2, some e) => (s2, some e)
    | (s2, none) =>
      match updateRanges [.m, .p, .h] s2 with
      | (s3, some e) => (s3, some e)
      | (s3, none) => applyIterinfo kw.iterinfo s3

/-- `Network.__init__` (networks/network.py 148-150). -/
def NetAttr.init (kw : NetKwargs) : NetAttr × Option PyErr := NetAttr.defaults.setAttr kw

/-- A history of calls: exceptions are caught by the user, the object lives on (calls of networks/network.py 234-326). -/
def NetAttr.run (s : NetAttr) : List NetKwargs → NetAttr
  | [] => s
  | kw :: kws => NetAttr.run (s.setAttr kw).1 kws

end Tespy
