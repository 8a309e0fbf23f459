/-
Common Python notions used by all models: exceptions as values and
insertion-ordered dictionaries.
-/
namespace Tespy

/-- The Python exceptions that occur in the modelled code (class only; the
messages are not modelled) (Python exceptions; the own classes in tools/helpers.py 67-82). -/
inductive PyErr
  | keyError | valueError | typeError | indexError | attributeError
  | zeroDivision | recursionError | mathDomain | nameError
  | networkError      -- TESPyNetworkError   (tools/helpers.py 67-70)
  | connectionError   -- TESPyConnectionError (tools/helpers.py 73-76)
  | componentError    -- TESPyComponentError (tools/helpers.py 79-82)
  deriving DecidableEq, Repr

/-- Result of a Python call: an exception or a value
(Python exceptions as values; used for all modelled functions that can raise). -/
abbrev PyRes (α : Type _) := Except PyErr α

/-- A Python dictionary: keys in insertion order (Python dictionary, e.g. `fluid.val` in tools/data_containers.py 344-364). -/
abbrev Dict (κ : Type _) (β : Type _) := List (κ × β)

namespace Dict
variable {κ : Type _} {β : Type _} [DecidableEq κ]

/-- `d.get(k)` (Python dictionary access, e.g. tools/helpers.py 60). -/
def get? : Dict κ β → κ → Option β
  | [], _ => none
  | (k', b) :: d, k => if k = k' then some b else get? d k

/-- `d[k]`: `KeyError` if the key is missing (Python dictionary access, e.g. tools/helpers.py 108). -/
def getItem (d : Dict κ β) (k : κ) : PyRes β :=
  match get? d k with
  | some b => .ok b
  | none => .error .keyError

/-- `d[k] = b`: replaces in place or appends (Python assignment, e.g. tools/helpers.py 62). -/
def set : Dict κ β → κ → β → Dict κ β
  | [], k, b => [(k, b)]
  | (k', b') :: d, k, b => if k = k' then (k', b) :: d else (k', b') :: set d k b

/-- `del d[k]` / `d.pop(k)` (for a present key) (Python dictionary, e.g. networks/network.py 611-614, 650-656). -/
def erase : Dict κ β → κ → Dict κ β
  | [], _ => []
  | (k', b') :: d, k => if k = k' then d else (k', b') :: erase d k

/-- `list(d.keys())` (Python dictionary, e.g. networks/network.py 935-938). -/
def keys (d : Dict κ β) : List κ := d.map Prod.fst

end Dict

/-- Python sequence indexing `l[i]` with negative indices, `IndexError` outside
(Python list access, e.g. tools/characteristics.py 125-126). -/
def pyGet {α : Type _} (l : List α) (i : Int) : PyRes α :=
  if 0 ≤ i then
    match l[i.toNat]? with
    | some a => .ok a
    | none => .error .indexError
  else if -(l.length : Int) ≤ i then
    match l[(l.length + i).toNat]? with
    | some a => .ok a
    | none => .error .indexError
  else .error .indexError

end Tespy
