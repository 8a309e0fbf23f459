import Mathlib.Algebra.Order.Field.Basic
import Mathlib.Algebra.Order.Group.Abs
import Verif.Model.Py
/-
Scalar Newton iteration, `newton_with_kwargs` (tools/helpers.py 513-565).
-/
namespace Tespy
variable {K : Type _} [Field K] [LinearOrder K]

/-- Value of the argument `tol_mode`; every string but "abs" and "rel" runs into
the last branch (tools/helpers.py 535-552). -/
inductive TolMode | abs | rel | both
  deriving DecidableEq

/-- Arguments of `newton_with_kwargs` (tools/helpers.py 513-516). `f` is
`function` as a function of the parameter, `df` the derivative; both may raise. -/
structure NewtonArgs (K : Type _) where
  f : K → PyRes K
  df : K → PyRes K
  target : K
  val0 : K
  valmin : K
  valmax : K
  maxIter : ℤ
  tolRel : K
  tolAbs : K
  mode : TolMode

/-- Outcome: returned value, number of evaluations of the residual, the residual
evaluated last, the point where it was evaluated and whether the loop was left
by the iteration limit (with the debug message) (tools/helpers.py 553-565). -/
structure NewtonOut (K : Type _) where
  x : K
  iterations : ℤ
  residual : K
  xLast : K
  limit : Bool

/-- Lines 532-533: relative tolerance is switched to absolute for small targets. -/
def NewtonArgs.effMode (a : NewtonArgs K) : TolMode :=
  if a.mode = .rel ∧ |a.target| ≤ 2 * a.tolRel then .abs else a.mode

/-- Lines 558-563: `expr`, continue the loop? -/
def NewtonArgs.continue (a : NewtonArgs K) (residual : K) : Bool :=
  if a.effMode = .abs ∨ a.target = 0 then decide (a.tolAbs ≤ |residual|)
  else if a.effMode = .rel then decide (a.tolRel ≤ |residual / a.target|)
  else decide (a.tolRel ≤ |residual / a.target|) || decide (a.tolAbs ≤ |residual|)

/-- Lines 541-545: clamping to the value range. -/
def clamp (valmin valmax x : K) : K :=
  let x := if x < valmin then valmin else x
  if x > valmax then valmax else x

/-- Lines 549-550: `relax` after the `iteration`-th pass. -/
def nextRelax (iteration : ℤ) (relax : K) : K := if iteration = 5 then 3 / 4 else relax

/-- Lines 549-551: `max_iter` after the `iteration`-th pass. -/
def nextMaxIter (iteration maxIter : ℤ) : ℤ := if iteration = 5 then 12 else maxIter

/-- The while loop, lines 535-563. The first argument bounds the number of loop
passes of the model, `none` means that the bound is used up (see
`newton_terminates`: it never is with 13 passes). A zero derivative is an
exception here (Python floats; numpy floats would give inf/nan). -/
def newtonLoop (a : NewtonArgs K) : Nat → K → ℤ → ℤ → K → Option (PyRes (NewtonOut K))
  | 0, _, _, _, _ => none
  | n + 1, x, iteration, maxIter, relax =>
    match a.f x with
    | .error e => some (.error e)
    | .ok fx =>
      let residual := a.target - fx
      match a.df x with
      | .error e => some (.error e)
      | .ok d =>
        if d = 0 then some (.error .zeroDivision)
        else
          let x' := clamp a.valmin a.valmax (x + residual / d * relax)
          let iteration' := iteration + 1
          let relax' := nextRelax iteration' relax
          let maxIter' := nextMaxIter iteration' maxIter
          if iteration' > maxIter' then some (.ok ⟨x', iteration', residual, x, true⟩)
          else if a.continue residual then newtonLoop a n x' iteration' maxIter' relax'
          else some (.ok ⟨x', iteration', residual, x, false⟩)

/-- `newton_with_kwargs` (tools/helpers.py 513-565). -/
def newton (a : NewtonArgs K) (passes : Nat) : Option (PyRes (NewtonOut K)) :=
  newtonLoop a passes a.val0 0 a.maxIter 1

/-- `central_difference` (tools/helpers.py 568-573), as a function of the
differentiated parameter. -/
def centralDifference (f : K → PyRes K) (delta x : K) : PyRes K := do
  let upper ← f (x + delta)
  let lower ← f (x - delta)
  if 2 * delta = 0 then .error .zeroDivision
  .ok ((upper - lower) / (2 * delta))

end Tespy
