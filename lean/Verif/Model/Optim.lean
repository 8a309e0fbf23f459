import Verif.Model.Py
import Verif.Lemmas.DictLemmas
import Mathlib.Algebra.Field.Defs
import Mathlib.Algebra.Order.Ring.Defs

/-
Models of the recursive merge of dictionaries and of the optimisation problem:
/repo/src/tespy/tools/helpers.py (merge_dicts) and
/repo/src/tespy/tools/optimization.py.
-/
namespace Tespy

/-- Nested Python dictionaries: a value that is not a `Mapping` is a leaf
(Python dictionaries as seen by tools/helpers.py 53-64). -/
inductive PTree (α : Type) where
  | leaf (a : α)
  | node (d : List (String × PTree α))

namespace PTree
variable {α : Type}

/-- `d.get(key, {})`; `AttributeError` if the object is not a dictionary (tools/helpers.py 60). -/
def getD (t : PTree α) (k : String) : PyRes (PTree α) :=
  match t with
  | .leaf _ => .error .attributeError
  | .node d =>
    match Dict.get? d k with
    | some v => .ok v
    | none => .ok (.node [])

/-- `d[key] = v`; `TypeError` if the object is not a dictionary. Simplification: leaves that
support item assignment with a string key do not occur (tools/helpers.py 60-62). -/
def setItem (t : PTree α) (k : String) (v : PTree α) : PyRes (PTree α) :=
  match t with
  | .leaf _ => .error .typeError
  | .node d => .ok (.node (Dict.set d k v))

/-- `d[key]` (Python dictionary access, tools/optimization.py 82-96). -/
def getItem (t : PTree α) (k : String) : PyRes (PTree α) :=
  match t with
  | .leaf _ => .error .typeError
  | .node d => Dict.getItem d k

/-- `d.items()`; `AttributeError` if the object is not a dictionary (tools/helpers.py 58, tools/optimization.py 82-96). -/
def items : PTree α → PyRes (List (String × PTree α))
  | .leaf _ => .error .attributeError
  | .node d => .ok d

/-- The loop over `dict2.items()` in `merge_dicts` (helpers.py 58-62), started with
`result = deepcopy(dict1)`. The copies are values here; the objects are in `Model.DictHeap`. -/
def mergeInto (result : PTree α) : List (String × PTree α) → PyRes (PTree α)
  | [] => .ok result
  | (k, .leaf a) :: d =>
    match result.setItem k (.leaf a) with
    | .error e => .error e
    | .ok r => mergeInto r d
  | (k, .node d') :: d =>
    match result.getD k with
    | .error e => .error e
    | .ok sub =>
      match mergeInto sub d' with
      | .error e => .error e
      | .ok m =>
        match result.setItem k m with
        | .error e => .error e
        | .ok r => mergeInto r d

/-- `merge_dicts(dict1, dict2)` (helpers.py 53-64) -/
def mergeDicts (d1 d2 : List (String × PTree α)) : PyRes (PTree α) :=
  mergeInto (.node d1) d2

end PTree

/-- Values in the dictionaries of an optimisation problem: numbers, names of constraints and the
address of a parameter (tools/optimization.py 56-102). -/
inductive OVal (K : Type)
  | num (x : K)
  | str (s : String)
  | addr (obj label param : String)

section
variable {K : Type}

/-- the object names with parameters (optimization.py 84 and 177) -/
def hasParams (obj : String) : Bool := obj == "Connections" || obj == "Components"

/-- the default structure of the variables (optimization.py 66) -/
def defaultVariables : List (String × PTree (OVal K)) :=
  [("Connections", .node []), ("Components", .node [])]

/-- the default structure of the constraints (optimization.py 67-70) -/
def defaultConstraints : List (String × PTree (OVal K)) :=
  [("lower limits", .node defaultVariables), ("upper limits", .node defaultVariables)]

/-- names, lower and upper bounds of the variables (tools/optimization.py 76-96). -/
structure VarInfo (K : Type) where
  names : List String
  lower : List (PTree (OVal K))
  upper : List (PTree (OVal K))

/-- one entry of `variable_list` and of `bounds` (optimization.py 86-92 and 94-96) -/
def VarInfo.add (i : VarInfo K) (name : String) (entry : PTree (OVal K)) : PyRes (VarInfo K) :=
  match entry.getItem "min" with
  | .error e => .error e
  | .ok lo =>
    match entry.getItem "max" with
    | .error e => .error e
    | .ok hi => .ok ⟨i.names ++ [name], i.lower ++ [lo], i.upper ++ [hi]⟩

/-- `for param in params` (optimization.py 85-92) -/
def infoParams (obj label : String) : List (String × PTree (OVal K)) → VarInfo K →
    PyRes (VarInfo K)
  | [], i => .ok i
  | (param, e) :: ps, i =>
    match i.add (obj ++ "-" ++ label ++ "-" ++ param) e with
    | .error e => .error e
    | .ok i' => infoParams obj label ps i'

/-- `for label, params in data.items()` (optimization.py 83-96) -/
def infoLabels (obj : String) : List (String × PTree (OVal K)) → VarInfo K → PyRes (VarInfo K)
  | [], i => .ok i
  | (label, params) :: ls, i =>
    if hasParams obj then
      match params.items with
      | .error e => .error e
      | .ok ps =>
        match infoParams obj label ps i with
        | .error e => .error e
        | .ok i' => infoLabels obj ls i'
    else
      match i.add (obj ++ "-" ++ label) params with
      | .error e => .error e
      | .ok i' => infoLabels obj ls i'

/-- `for obj, data in self.variables.items()` (optimization.py 82-96) -/
def infoObjs : List (String × PTree (OVal K)) → VarInfo K → PyRes (VarInfo K)
  | [], i => .ok i
  | (obj, data) :: os, i =>
    match data.items with
    | .error e => .error e
    | .ok ls =>
      match infoLabels obj ls i with
      | .error e => .error e
      | .ok i' => infoObjs os i'

/-- The state of `OptimizationProblem`. `input_dict` is a shallow copy of `variables`
(optimization.py 98): both refer to the same inner dictionaries, the outer one is not changed. -/
structure Problem (K : Type) where
  vars : List (String × PTree (OVal K))
  constraints : List (String × PTree (OVal K))
  info : VarInfo K
  constraintList : List String
  nic : ℕ

/-- text of the right side (optimization.py 127-130); the number format is a parameter -/
def rightSide (fmt : K → String) (cs : List (String × PTree (OVal K))) (c : PTree (OVal K)) :
    PyRes String :=
  match c with
  | .leaf (.str s) =>
    match Dict.getItem cs s with
    | .error e => .error e
    | .ok (.leaf (.addr o l p)) => .ok (o ++ "-" ++ l ++ "-" ++ p)
    | .ok _ => .error .typeError
  | .leaf (.num x) => .ok (fmt x)
  | _ => .ok ""

/-- `collect_constraints(border, build=True)` for the parameters of one label
(optimization.py 123-136); `nic` is the length of the list -/
def buildParams (fmt : K → String) (cs : List (String × PTree (OVal K))) (upper : Bool)
    (obj label : String) : List (String × PTree (OVal K)) → List String → PyRes (List String)
  | [], acc => .ok acc
  | (param, c) :: ps, acc =>
    match rightSide fmt cs c with
    | .error e => .error e
    | .ok r =>
      buildParams fmt cs upper obj label ps
        (acc ++ [obj ++ "-" ++ label ++ "-" ++ param ++ (if upper then "<=" else ">=") ++ r])

/-- The loop over the labels of `collect_constraints(build=True)`, tools/optimization.py 120-158. -/
def buildLabels (fmt : K → String) (cs : List (String × PTree (OVal K))) (upper : Bool)
    (obj : String) : List (String × PTree (OVal K)) → List String → PyRes (List String)
  | [], acc => .ok acc
  | (label, data) :: ls, acc =>
    match data.items with
    | .error e => .error e
    | .ok ps =>
      match buildParams fmt cs upper obj label ps acc with
      | .error e => .error e
      | .ok acc' => buildLabels fmt cs upper obj ls acc'

/-- The loop over the kinds of objects of `collect_constraints(build=True)`, tools/optimization.py 120-158. -/
def buildObjs (fmt : K → String) (cs : List (String × PTree (OVal K))) (upper : Bool) :
    List (String × PTree (OVal K)) → List String → PyRes (List String)
  | [], acc => .ok acc
  | (obj, data) :: os, acc =>
    match data.items with
    | .error e => .error e
    | .ok ls =>
      match buildLabels fmt cs upper obj ls acc with
      | .error e => .error e
      | .ok acc' => buildObjs fmt cs upper os acc'

/-- key of the limits (optimization.py 121) -/
def borderKey (upper : Bool) : String := if upper then "upper limits" else "lower limits"

/-- `self.constraints[f'{border} limits'].items()` (optimization.py 121) -/
def limitItems (cs : List (String × PTree (OVal K))) (upper : Bool) :
    PyRes (List (String × PTree (OVal K))) :=
  match Dict.getItem cs (borderKey upper) with
  | .error e => .error e
  | .ok t => t.items

/-- `collect_constraints(border, build=True)`, tools/optimization.py 104-158. -/
def buildConstraints (fmt : K → String) (cs : List (String × PTree (OVal K))) (upper : Bool)
    (acc : List String) : PyRes (List String) :=
  match limitItems cs upper with
  | .error e => .error e
  | .ok os => buildObjs fmt cs upper os acc

/-- `OptimizationProblem.__init__` (optimization.py 65-102) -/
def Problem.init (fmt : K → String) (vars constraints : List (String × PTree (OVal K))) :
    PyRes (Problem K) :=
  match PTree.mergeDicts vars defaultVariables with
  | .error e => .error e
  | .ok vt =>
    match PTree.mergeDicts constraints defaultConstraints with
    | .error e => .error e
    | .ok ct =>
      match vt.items with
      | .error e => .error e
      | .ok vs =>
        match ct.items with
        | .error e => .error e
        | .ok cs =>
          match infoObjs vs ⟨[], [], []⟩ with
          | .error e => .error e
          | .ok info =>
            match buildConstraints fmt cs true [] with
            | .error e => .error e
            | .ok u =>
              match buildConstraints fmt cs false u with
              | .error e => .error e
              | .ok ul => .ok ⟨vs, cs, info, ul, ul.length⟩

/-- `x[i]`, with the entries of the decision vector that are left (tools/optimization.py 174-183). -/
def nextX (x : List K) : PyRes (K × List K) :=
  match x with
  | [] => .error .indexError
  | a :: x => .ok (a, x)

/-- `for param in params: input_dict[obj][label][param] = x[i]; i += 1`
(optimization.py 178-180). The keys are the ones the loop runs over. -/
def applyParams : List (String × PTree (OVal K)) → List K →
    PyRes (List (String × PTree (OVal K)) × List K)
  | [], x => .ok ([], x)
  | (param, _) :: ps, x =>
    match nextX x with
    | .error e => .error e
    | .ok ax =>
      match applyParams ps ax.2 with
      | .error e => .error e
      | .ok out => .ok ((param, .leaf (.num ax.1)) :: out.1, out.2)

/-- `for label, params in data.items()` (optimization.py 176-183) -/
def applyLabels (obj : String) : List (String × PTree (OVal K)) → List K →
    PyRes (List (String × PTree (OVal K)) × List K)
  | [], x => .ok ([], x)
  | (label, params) :: ls, x =>
    if hasParams obj then
      match params.items with
      | .error e => .error e
      | .ok ps =>
        match applyParams ps x with
        | .error e => .error e
        | .ok a =>
          match applyLabels obj ls a.2 with
          | .error e => .error e
          | .ok out => .ok ((label, .node a.1) :: out.1, out.2)
    else
      match nextX x with
      | .error e => .error e
      | .ok ax =>
        match applyLabels obj ls ax.2 with
        | .error e => .error e
        | .ok out => .ok ((label, .leaf (.num ax.1)) :: out.1, out.2)

/-- `for obj, data in self.variables.items()` (optimization.py 175-183): the dictionaries with
the decision vector written to them. Simplification: on an `IndexError` the entries written
before are not kept. -/
def applyObjs : List (String × PTree (OVal K)) → List K →
    PyRes (List (String × PTree (OVal K)) × List K)
  | [], x => .ok ([], x)
  | (obj, data) :: os, x =>
    match data.items with
    | .error e => .error e
    | .ok ls =>
      match applyLabels obj ls x with
      | .error e => .error e
      | .ok a =>
        match applyObjs os a.2 with
        | .error e => .error e
        | .ok out => .ok ((obj, .node a.1) :: out.1, out.2)

/-- What the user's model gives after `solve_model`: parameters and the objective
(`get_param`, `get_objective`) (tools/optimization.py 139-153, 160-191). -/
structure ModelRes (K : Type) where
  param : String → String → String → PyRes K
  objective : PyRes K

variable [Field K]

/-- one constraint (optimization.py 139-153) -/
def evalConstraint (get : String → String → String → PyRes K)
    (cs : List (String × PTree (OVal K))) (upper : Bool) (obj label param : String)
    (c : PTree (OVal K)) : PyRes K :=
  let limit : PyRes K :=
    match c with
    | .leaf (.str s) =>
      match Dict.getItem cs s with
      | .error e => .error e
      | .ok (.leaf (.addr o l p)) => get o l p
      | .ok _ => .error .typeError
    | .leaf (.num x) => .ok x
    | _ => .error .typeError
  match limit with
  | .error e => .error e
  | .ok lim =>
    match get obj label param with
    | .error e => .error e
    | .ok v => .ok (if upper then -(lim - v) else lim - v)

/-- The loop over the parameters of `collect_constraints`, tools/optimization.py 120-158. -/
def evalParams (get : String → String → String → PyRes K) (cs : List (String × PTree (OVal K)))
    (upper : Bool) (obj label : String) : List (String × PTree (OVal K)) → PyRes (List K)
  | [] => .ok []
  | (param, c) :: ps =>
    match evalConstraint get cs upper obj label param c with
    | .error e => .error e
    | .ok v =>
      match evalParams get cs upper obj label ps with
      | .error e => .error e
      | .ok vs => .ok (v :: vs)

/-- The loop over the labels of `collect_constraints`, tools/optimization.py 120-158. -/
def evalLabels (get : String → String → String → PyRes K) (cs : List (String × PTree (OVal K)))
    (upper : Bool) (obj : String) : List (String × PTree (OVal K)) → PyRes (List K)
  | [] => .ok []
  | (label, data) :: ls =>
    match data.items with
    | .error e => .error e
    | .ok ps =>
      match evalParams get cs upper obj label ps with
      | .error e => .error e
      | .ok a =>
        match evalLabels get cs upper obj ls with
        | .error e => .error e
        | .ok vs => .ok (a ++ vs)

/-- The loop over the kinds of objects of `collect_constraints`, tools/optimization.py 120-158. -/
def evalObjs (get : String → String → String → PyRes K) (cs : List (String × PTree (OVal K)))
    (upper : Bool) : List (String × PTree (OVal K)) → PyRes (List K)
  | [] => .ok []
  | (obj, data) :: os =>
    match data.items with
    | .error e => .error e
    | .ok ls =>
      match evalLabels get cs upper obj ls with
      | .error e => .error e
      | .ok a =>
        match evalObjs get cs upper os with
        | .error e => .error e
        | .ok vs => .ok (a ++ vs)

/-- `collect_constraints(border)` (optimization.py 120-158) -/
def collectConstraints (get : String → String → String → PyRes K)
    (cs : List (String × PTree (OVal K))) (upper : Bool) : PyRes (List K) :=
  match limitItems cs upper with
  | .error e => .error e
  | .ok os => evalObjs get cs upper os

/-- `fitness(x)` (optimization.py 160-191): the new state, the dictionary handed to
`solve_model` and the fitness vector. -/
def Problem.fitness (p : Problem K)
    (solve : List (String × PTree (OVal K)) → PyRes (ModelRes K)) (x : List K) :
    PyRes (Problem K × List (String × PTree (OVal K)) × List K) :=
  match applyObjs p.vars x with
  | .error e => .error e
  | .ok a =>
    match solve a.1 with
    | .error e => .error e
    | .ok res =>
      match res.objective with
      | .error e => .error e
      | .ok f =>
        match collectConstraints res.param p.constraints true with
        | .error e => .error e
        | .ok cu =>
          match collectConstraints res.param p.constraints false with
          | .error e => .error e
          | .ok cl => .ok ({ p with vars := a.1 }, a.1, f :: (cu ++ cl))

end

end Tespy
