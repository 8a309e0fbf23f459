import Verif.Model.Py
import Mathlib.Data.Nat.Notation
/-!
User defined equations: creation, registration in a network and preparation for a calculation
(tools/helpers.py 164-344, networks/network.py 569-614, 2070-2081).

Objects have identities: `UserDefinedEquation` objects, the lists of connections and the dictionaries
of parameters are numbered in the order of creation. Dictionary 0 is the default value `{}` of the
argument `params` of `__init__`: Python evaluates it once, when the class is defined.

Simplifications: connections are numbers with a label; values of parameters are integers; functions
and the LaTeX information of an equation are not modelled, except for the type of `latex`.
-/
namespace Tespy

/-- A connection object: its label and its identity (connections/connection.py 232-256). -/
structure UConn where
  label : String
  ident : ℕ
  deriving DecidableEq

/-- Attributes of a `UserDefinedEquation`: label, list object of `conns`, dictionary object of `params`
(tools/helpers.py 300-337). -/
structure UdeObj where
  label : String
  conns : ℕ
  params : ℕ
  deriving DecidableEq

/-- All objects and the registry `nw.user_defined_eq` (label to equation)
(tools/helpers.py 300-337, networks/network.py 190). -/
structure UdeWorld where
  objs : List UdeObj
  lists : List (List UConn)
  dicts : List (Dict String Int)
  reg : Dict String ℕ
  deriving DecidableEq

/-- Before any call: an empty registry (networks/network.py 190) and the default dictionary. -/
def UdeWorld.init : UdeWorld := ⟨[], [], [[]], []⟩

/-- Argument `params`: not given, a dictionary object, or something else (tools/helpers.py 166, 325-337). -/
inductive ParamsArg
  | absent
  | dict (n : ℕ)
  | other
  deriving DecidableEq

/-- The dictionary object bound to the parameter `params` (tools/helpers.py 166). -/
def ParamsArg.object : ParamsArg → Option ℕ
  | .absent => some 0
  | .dict n => some n
  | .other => none

/-- `UserDefinedEquation.__init__` (tools/helpers.py 300-337). `none` for label and conns: an object of
another type. `latexOk`: `latex` is a dictionary. -/
def newUde (w : UdeWorld) (label : Option String) (conns : Option ℕ) (params : ParamsArg)
    (latexOk : Bool) : UdeWorld × PyRes ℕ :=
  match label with
  | none => (w, .error .typeError)
  | some l =>
    match conns with
    | none => (w, .error .typeError)
    | some c =>
      match params.object with
      | none => (w, .error .typeError)
      | some p =>
        if latexOk then ({ w with objs := w.objs ++ [⟨l, c, p⟩] }, .ok w.objs.length)
        else (w, .error .typeError)

/-- `ude.params[key] = value` (Python assignment by the user to the dictionary of tools/helpers.py 325-337). -/
def setUdeParam (w : UdeWorld) (o : ℕ) (key : String) (v : Int) : UdeWorld :=
  match w.objs[o]? with
  | none => w
  | some u => { w with dicts := w.dicts.modify u.params (fun d => Dict.set d key v) }

/-- `Network.add_ude` (networks/network.py 569-599). `none`: an argument of another type. -/
def addUde (w : UdeWorld) : List (Option ℕ) → UdeWorld × Option PyErr
  | [] => (w, none)
  | none :: _ => (w, some .typeError)
  | some o :: rest =>
    match w.objs[o]? with
    | none => (w, some .typeError)
    | some u =>
      if u.label ∈ Dict.keys w.reg then (w, some .valueError)
      else addUde { w with reg := Dict.set w.reg u.label o } rest

/-- `Network.del_ude` (networks/network.py 601-614). -/
def delUde (w : UdeWorld) : List ℕ → UdeWorld × Option PyErr
  | [] => (w, none)
  | o :: rest =>
    match w.objs[o]? with
    | none => (w, some .attributeError)
    | some u =>
      if u.label ∈ Dict.keys w.reg then delUde { w with reg := Dict.erase w.reg u.label } rest
      else (w, some .keyError)

/-- `[self.conns.loc[c.label, 'object'] for c in func.conns]` (networks/network.py 2077-2079); `net`: the
connections of the network by label. -/
def remapConns (net : Dict String ℕ) : List UConn → PyRes (List UConn)
  | [] => .ok []
  | c :: cs =>
    match Dict.get? net c.label with
    | none => .error .keyError
    | some i =>
      match remapConns net cs with
      | .error e => .error e
      | .ok r => .ok (⟨c.label, i⟩ :: r)

/-- The loop of `solve_determination` (networks/network.py 2075-2081) over the registered equations: every
equation gets a new list of connections. -/
def remapAll (net : Dict String ℕ) (w : UdeWorld) : List ℕ → UdeWorld × Option PyErr
  | [] => (w, none)
  | o :: rest =>
    match w.objs[o]? with
    | none => (w, some .attributeError)
    | some u =>
      match remapConns net ((w.lists[u.conns]?).getD []) with
      | .error e => (w, some e)
      | .ok r =>
        remapAll net { w with
          objs := w.objs.set o { u with conns := w.lists.length }
          lists := w.lists ++ [r] } rest

/-- A calculation, as far as the user defined equations are prepared for it (networks/network.py 2075-2081). -/
def prepareUdes (net : Dict String ℕ) (w : UdeWorld) : UdeWorld × Option PyErr :=
  remapAll net w (w.reg.map Prod.snd)

/-- The connections of an equation (attribute `conns`, tools/helpers.py 300-337). -/
def UdeWorld.connsOf (w : UdeWorld) (o : ℕ) : Option (List UConn) :=
  match w.objs[o]? with
  | none => none
  | some u => w.lists[u.conns]?

/-- The parameters of an equation (attribute `params`, tools/helpers.py 300-337). -/
def UdeWorld.paramsOf (w : UdeWorld) (o : ℕ) : Option (Dict String Int) :=
  match w.objs[o]? with
  | none => none
  | some u => w.dicts[u.params]?

/-- Calls of a user (tools/helpers.py 166, networks/network.py 569-614, 2075-2081). -/
inductive UdeOp
  | list (l : List UConn)
  | dict (d : Dict String Int)
  | create (label : Option String) (conns : Option ℕ) (params : ParamsArg) (latexOk : Bool)
  | setParam (o : ℕ) (key : String) (v : Int)
  | add (args : List (Option ℕ))
  | del (args : List ℕ)
  | solve (net : Dict String ℕ)

/-- One call; exceptions are caught by the user (calls of tools/helpers.py 166, networks/network.py 569-614, 2075-2081). -/
def udeStep (w : UdeWorld) : UdeOp → UdeWorld
  | .list l => { w with lists := w.lists ++ [l] }
  | .dict d => { w with dicts := w.dicts ++ [d] }
  | .create l c p x =>
    if (match c with | none => true | some i => decide (i < w.lists.length))
      && (match p with | .dict n => decide (n < w.dicts.length) | _ => true) then (newUde w l c p x).1
    else w
  | .setParam o k v => setUdeParam w o k v
  | .add args => (addUde w args).1
  | .del args => (delUde w args).1
  | .solve net => (prepareUdes net w).1

/-- A sequence of calls (calls of tools/helpers.py 166, networks/network.py 569-614, 2075-2081). -/
def udeRun (ops : List UdeOp) : UdeWorld := ops.foldl udeStep .init

end Tespy
