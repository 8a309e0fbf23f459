import Mathlib.Algebra.Order.Field.Basic
import Verif.Model.Py
/-
Characteristic lines and maps (tools/characteristics.py).
-/
namespace Tespy
variable {K : Type _} [Field K] [LinearOrder K]

/-- `np.searchsorted(a, v)` (side 'left'): for an ascending array the index of the
first element which is not smaller than `v`. (numpy uses bisection; for arrays
which are not sorted the result of numpy is unspecified, the theorems assume
sorted arrays.) (numpy function called in tools/characteristics.py 113, 273, 303). -/
def searchsorted (a : List K) (v : K) : Nat := (a.takeWhile (fun t => t < v)).length

/-- `CharLine` object (tools/characteristics.py 55-66). -/
structure CharLine (K : Type _) where
  x : List K
  y : List K
  extrapolate : Bool
  deriving DecidableEq

/-- `CharLine.__init__` (tools/characteristics.py 55-80). -/
def CharLine.init (x y : List K) (extrapolate : Bool := false) : PyRes (CharLine K) :=
  if x.length ≠ y.length then .error .valueError else .ok ⟨x, y, extrapolate⟩

/-- The interpolation formula used by `CharLine.evaluate`, `CharMap.evaluate_x`
and `evaluate_y` on the neighbours `xpos - 1`, `xpos`
(tools/characteristics.py 125-126, with Python index semantics).
Simplification: a zero denominator is an error here, numpy yields inf/nan. -/
def interpAt (x y : List K) (xpos : Int) (v : K) : PyRes K := do
  let x0 ← pyGet x (xpos - 1)
  let x1 ← pyGet x xpos
  if x1 - x0 = 0 then .error .zeroDivision
  let yfrac := (v - x0) / (x1 - x0)
  let y0 ← pyGet y (xpos - 1)
  let y1 ← pyGet y xpos
  .ok (y0 + yfrac * (y1 - y0))

/-- `CharLine.evaluate` (tools/characteristics.py 113-126). -/
def CharLine.evaluate (c : CharLine K) (v : K) : PyRes K :=
  let xpos := searchsorted c.x v
  if xpos = c.x.length then
    if c.extrapolate then interpAt c.x c.y (-1) v
    else pyGet c.y (-1)
  else if xpos = 0 then
    if c.extrapolate then interpAt c.x c.y 1 v
    else pyGet c.y 0
  else interpAt c.x c.y xpos v

/-- The warning issued by `get_domain_errors` with the bound it names (tools/characteristics.py 137-148). -/
inductive DomainWarning (K : Type _)
  | above (maximum : K)
  | below (minimum : K)
  deriving DecidableEq

/-- `CharLine.get_domain_errors` (tools/characteristics.py 137-148); the result is
the logged warning. Line 146 prints `self.x[1]` as minimum. -/
def CharLine.getDomainErrors (c : CharLine K) (v : K) : PyRes (Option (DomainWarning K)) := do
  let last ← pyGet c.x (-1)
  if v > last then .ok (some (.above last))
  else
    let first ← pyGet c.x 0
    if v < first then
      let m ← pyGet c.x 1
      .ok (some (.below m))
    else .ok none

/-- `CharMap` object (tools/characteristics.py 219-235). -/
structure CharMap (K : Type _) where
  x : List K
  y : List (List K)
  z : List (List K)
  deriving DecidableEq

/-- `CharMap.__init__` (tools/characteristics.py 219-253). numpy arrays are
rectangular: rows of different length raise `ValueError` in `astype(float)`. -/
def CharMap.init (x : List K) (y z : List (List K)) : PyRes (CharMap K) :=
  let w := (y.headD []).length
  if ¬ (∀ r ∈ y, r.length = w) then .error .valueError
  else if ¬ (∀ r ∈ z, r.length = (z.headD []).length) then .error .valueError
  else if x.length ≠ y.length then .error .valueError
  else if y.length ≠ z.length ∨ w ≠ (z.headD []).length then .error .valueError
  else .ok ⟨x, y, z⟩

/-- `a + f * (b - a)` for numpy rows of equal length (tools/characteristics.py 280-285). -/
def rowInterp (f : K) (a b : List K) : List K := List.zipWith (fun a b => a + f * (b - a)) a b

/-- `CharMap.evaluate_x` (tools/characteristics.py 273-285). -/
def CharMap.evaluateX (c : CharMap K) (v : K) : PyRes (List K × List K) := do
  let xpos := searchsorted c.x v
  if xpos = c.x.length then
    let yarr ← pyGet c.y ((xpos : Int) - 1)
    let zarr ← pyGet c.z ((xpos : Int) - 1)
    .ok (yarr, zarr)
  else if xpos = 0 then
    let yarr ← pyGet c.y 0
    let zarr ← pyGet c.z 0
    .ok (yarr, zarr)
  else
    let x0 ← pyGet c.x ((xpos : Int) - 1)
    let x1 ← pyGet c.x xpos
    if x1 - x0 = 0 then .error .zeroDivision
    let yfrac := (v - x0) / (x1 - x0)
    let y0 ← pyGet c.y ((xpos : Int) - 1)
    let y1 ← pyGet c.y xpos
    let z0 ← pyGet c.z ((xpos : Int) - 1)
    let z1 ← pyGet c.z xpos
    .ok (rowInterp yfrac y0 y1, rowInterp yfrac z0 z1)

/-- `CharMap.evaluate_y` (tools/characteristics.py 303-311). -/
def CharMap.evaluateY (v : K) (yarr zarr : List K) : PyRes K :=
  let ypos := searchsorted yarr v
  if ypos = yarr.length then pyGet zarr ((ypos : Int) - 1)
  else if ypos = 0 then pyGet zarr 0
  else interpAt yarr zarr ypos v

/-- `CharMap.evaluate` (tools/characteristics.py 349). -/
def CharMap.evaluate (c : CharMap K) (x y : K) : PyRes K := do
  let (yarr, zarr) ← c.evaluateX x
  CharMap.evaluateY y yarr zarr

/-- `CharMap.get_domain_errors_x` (tools/characteristics.py 369-386), with the
Python index `xpos - 1 = -1` for `x == self.x[0]`. -/
def CharMap.getDomainErrorsX (c : CharMap K) (v : K) :
    PyRes (List K × Option (DomainWarning K)) := do
  let xpos := searchsorted c.x v
  let last ← pyGet c.x (-1)
  let first ← pyGet c.x 0
  if xpos = c.x.length ∧ v ≠ last then
    let yarr ← pyGet c.y ((xpos : Int) - 1)
    .ok (yarr, some (.above last))
  else if xpos = 0 ∧ v ≠ first then
    let yarr ← pyGet c.y 0
    .ok (yarr, some (.below first))
  else
    let x0 ← pyGet c.x ((xpos : Int) - 1)
    let x1 ← pyGet c.x xpos
    if x1 - x0 = 0 then .error .zeroDivision
    let yfrac := (v - x0) / (x1 - x0)
    let y0 ← pyGet c.y ((xpos : Int) - 1)
    let y1 ← pyGet c.y xpos
    .ok (rowInterp yfrac y0 y1, none)

/-- `CharMap.get_domain_errors_y` (tools/characteristics.py 404-416). -/
def CharMap.getDomainErrorsY (v : K) (yarr : List K) : PyRes (Option (DomainWarning K)) := do
  let ypos := searchsorted yarr v
  let last ← pyGet yarr (-1)
  let first ← pyGet yarr 0
  if ypos = yarr.length ∧ v ≠ last then .ok (some (.above last))
  else if ypos = 0 ∧ v ≠ first then .ok (some (.below first))
  else .ok none

/-- `CharMap.get_domain_errors` (tools/characteristics.py 430-431). -/
def CharMap.getDomainErrors (c : CharMap K) (x y : K) :
    PyRes (Option (DomainWarning K) × Option (DomainWarning K)) := do
  let (yarr, wx) ← c.getDomainErrorsX x
  let wy ← CharMap.getDomainErrorsY y yarr
  .ok (wx, wy)

end Tespy
