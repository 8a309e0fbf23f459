import Verif.Model.Py
import Mathlib.Data.Nat.Notation

/-
`merge_dicts` (/repo/src/tespy/tools/helpers.py 53-64) on objects with identity: which
dictionaries are created, changed and shared.
-/
namespace Tespy

/-- A Python value: immutable, or a reference to a mutable object (Python objects as seen by tools/helpers.py 53-64). -/
inductive PyRef (α : Type)
  | imm (a : α)
  | ptr (n : ℕ)
  deriving DecidableEq

/-- A mutable object: a dictionary or another mutable object (a list) with its content
(Python objects as seen by tools/helpers.py 53-64). -/
inductive PyObj (α : Type)
  | dict (d : List (String × PyRef α))
  | box (a : α)
  deriving DecidableEq

/-- The heap: the object of reference `n` is at position `n` (Python objects as seen by tools/helpers.py 53-64). -/
abbrev DHeap (α : Type) := List (PyObj α)

section
variable {α : Type}

/-- `obj[k] = v` for the object of reference `n` (Python assignment, tools/helpers.py 60-62). -/
def DHeap.setKey (h : DHeap α) (n : ℕ) (k : String) (v : PyRef α) : PyRes (DHeap α) :=
  match h[n]? with
  | some (.dict d) => .ok (h.set n (.dict (Dict.set d k v)))
  | _ => .error .typeError

/-- the loop over the items of a dictionary in `deepcopy`; `copy` copies a value
(`deepcopy` of the Python library, called in tools/helpers.py 56, 62). -/
def copyItems (copy : DHeap α → Dict ℕ ℕ → PyRef α → PyRes (DHeap α × Dict ℕ ℕ × PyRef α))
    (y : ℕ) : List (String × PyRef α) → DHeap α → Dict ℕ ℕ → PyRes (DHeap α × Dict ℕ ℕ)
  | [], h, memo => .ok (h, memo)
  | (k, v) :: d, h, memo =>
    match copy h memo v with
    | .error e => .error e
    | .ok c =>
      match DHeap.setKey c.1 y k c.2.2 with
      | .error e => .error e
      | .ok h' => copyItems copy y d h' c.2.1

/-- `deepcopy(x)` with the memo of the copied objects (Python's `copy` module). A reference that
does not occur in the heap cannot occur in Python; the recursion limit is the first argument
(called in tools/helpers.py 56, 62). -/
def deepcopy : ℕ → DHeap α → Dict ℕ ℕ → PyRef α → PyRes (DHeap α × Dict ℕ ℕ × PyRef α)
  | 0, _, _, _ => .error .recursionError
  | _ + 1, h, memo, .imm a => .ok (h, memo, .imm a)
  | fuel + 1, h, memo, .ptr n =>
    match Dict.get? memo n with
    | some m => .ok (h, memo, .ptr m)
    | none =>
      match h[n]? with
      | none => .error .keyError
      | some (.box a) => .ok (h ++ [.box a], Dict.set memo n h.length, .ptr h.length)
      | some (.dict d) =>
        -- `y = {}; memo[id(x)] = y; for key, value in x.items(): y[key] = deepcopy(value)`
        match copyItems (deepcopy fuel) h.length d (h ++ [.dict []])
            (Dict.set memo n h.length) with
        | .error e => .error e
        | .ok out => .ok (out.1, out.2, .ptr h.length)

/-- `result.get(key, {})` (helpers.py 60): the default is a new dictionary -/
def DHeap.getD (h : DHeap α) (r : PyRef α) (k : String) : PyRes (DHeap α × PyRef α) :=
  match r with
  | .imm _ => .error .attributeError
  | .ptr n =>
    match h[n]? with
    | some (.dict d) =>
      match Dict.get? d k with
      | some v => .ok (h, v)
      | none => .ok (h ++ [.dict []], .ptr h.length)
    | _ => .error .attributeError

/-- `result[key] = value` (helpers.py 60 and 62) -/
def DHeap.setItem (h : DHeap α) (r : PyRef α) (k : String) (v : PyRef α) : PyRes (DHeap α) :=
  match r with
  | .imm _ => .error .typeError
  | .ptr n => h.setKey n k v

/-- `isinstance(value, Mapping)` with the items of the dictionary (tools/helpers.py 59). -/
def DHeap.dictOf (h : DHeap α) : PyRef α → Option (List (String × PyRef α))
  | .imm _ => none
  | .ptr n =>
    match h[n]? with
    | some (.dict d) => some d
    | _ => none

/-- `for key, value in dict2.items()` (helpers.py 58-62); `merge` is the recursive call, `copy`
is `deepcopy` -/
def mergeLoop (merge : DHeap α → PyRef α → List (String × PyRef α) → PyRes (DHeap α × PyRef α))
    (copy : DHeap α → PyRef α → PyRes (DHeap α × PyRef α)) (result : PyRef α) :
    List (String × PyRef α) → DHeap α → PyRes (DHeap α)
  | [], h => .ok h
  | (k, v) :: d, h =>
    match h.dictOf v with
    | some d' =>
      match h.getD result k with
      | .error e => .error e
      | .ok s =>
        match merge s.1 s.2 d' with
        | .error e => .error e
        | .ok m =>
          match m.1.setItem result k m.2 with
          | .error e => .error e
          | .ok h' => mergeLoop merge copy result d h'
    | none =>
      match copy h v with
      | .error e => .error e
      | .ok c =>
        match c.1.setItem result k c.2 with
        | .error e => .error e
        | .ok h' => mergeLoop merge copy result d h'

/-- `deepcopy(x)` called with an empty memo (tools/helpers.py 56, 62). -/
def deepcopyTop (fuel : ℕ) (h : DHeap α) (r : PyRef α) : PyRes (DHeap α × PyRef α) :=
  match deepcopy fuel h [] r with
  | .error e => .error e
  | .ok c => .ok (c.1, c.2.2)

/-- `merge_dicts(dict1, dict2)` (helpers.py 53-64); `d2` are the items of `dict2` -/
def mergeHeap : ℕ → DHeap α → PyRef α → List (String × PyRef α) → PyRes (DHeap α × PyRef α)
  | 0, _, _, _ => .error .recursionError
  | fuel + 1, h, r1, d2 =>
    match deepcopyTop fuel h r1 with
    | .error e => .error e
    | .ok c =>
      match mergeLoop (mergeHeap fuel) (deepcopyTop fuel) c.2 d2 c.1 with
      | .error e => .error e
      | .ok h' => .ok (h', c.2)

end

end Tespy
