import Mathlib.Analysis.SpecialFunctions.Log.Basic
import Mathlib.Algebra.Order.Floor.Ring
import Verif.Model.Solver

/-!
The information printed in every iteration: `iterinfo_body`, `iterinfo_tail` and the warning at the end of `solve_loop`
(networks/network.py 2148-2226, 2014-2068).

Simplifications: numbers are not rounded to the two decimals of the printout; real arithmetic; the time is left out.
-/
namespace Tespy
open Real

/-- The progress in percent (networks/network.py 2183-2197); `E` is `ERR`, `eps` is `np.finfo(float).eps`. `int` cuts off the
decimals, the number is not negative. -/
noncomputable def progressVal (E eps r : ℝ) : ℤ :=
  if r > eps * 100 then
    ⌊max 0 (min 1 ((log (max r E) * -1 - log E) / (log (√E) * -1 - log E))) * 100⌋
  else 100

/-- Numbers of the variables with a name (networks/network.py 2150-2154): `variables_dict` maps the number of a variable to its
name. -/
def namedVars (vars : Dict ℕ String) (name : String) : List ℕ :=
  (vars.filter (fun kv => kv.2 = name)).map Prod.fst

/-- Numbers of the other variables (networks/network.py 2155). -/
def otherVars (vars : Dict ℕ String) : List ℕ :=
  (vars.map Prod.fst).filter (fun k =>
    k ∉ namedVars vars "m" ++ namedVars vars "p" ++ namedVars vars "h" ++ namedVars vars "fluid")

/-- `norm(self.increment[columns])` (networks/network.py 2175-2179). -/
noncomputable def incNorm (inc : ℕ → ℝ) (cols : List ℕ) : ℝ := √((cols.map (fun k => inc k ^ 2)).sum)

/-- The norms of the increments: mass flow, pressure, enthalpy, fluid, component (networks/network.py 2175-2179). -/
structure IncCols where
  massflow : ℝ
  pressure : ℝ
  enthalpy : ℝ
  fluid : ℝ
  component : ℝ

/-- One line of the printout (networks/network.py 2157-2207); `none` is the text NaN. -/
structure IterLine where
  iter : ℕ
  residual : Option ℝ
  progress : Option ℤ
  cols : Option IncCols

/-- `iterinfo_body` (networks/network.py 2148-2210) in iteration `i` (counted from 0). -/
noncomputable def iterLine (E eps : ℝ) (vars : Dict ℕ String) (inc : ℕ → ℝ) (i : ℕ) (it : Iter ℝ) : IterLine :=
  match it.norm with
  | none => ⟨i + 1, none, none, none⟩
  | some r => ⟨i + 1, some r, some (progressVal E eps r),
      if it.linDep then none
      else some ⟨incNorm inc (namedVars vars "m"), incNorm inc (namedVars vars "p"), incNorm inc (namedVars vars "h"),
        incNorm inc (namedVars vars "fluid"), incNorm inc (otherVars vars)⟩⟩

/-- The lines printed by `solve_loop` (networks/network.py 2028-2052), same loop as `solveLoop`; `inc i` are the increments of
iteration `i`. -/
noncomputable def infoLoop (E eps : ℝ) (vars : Dict ℕ String) (inc : ℕ → ℕ → ℝ) (out : ℕ → Iter ℝ) (minIter : ℤ) :
    ℕ → ℕ → List IterLine
  | 0, _ => []
  | rem + 1, i =>
    iterLine E eps vars (inc i) i (out i) ::
      (if stopNow out (√E) minIter i then [] else if noProgress out i then [] else infoLoop E eps vars inc out minIter rem (i + 1))

/-- `self.iter` after `iters` iterations: 0 before the loop (networks/network.py 1923), then the number of the last iteration
(2028). -/
def lastIter (o : LoopOut ℝ) : ℕ := o.iters - 1

/-- "Total iterations" (networks/network.py 2213-2222). -/
def totalPrinted (o : LoopOut ℝ) : ℕ := lastIter o + 1

/-- The warning "Reached maximum iteration count" (networks/network.py 2059-2065): `self.iter == self.max_iter - 1`. -/
def limitWarning (maxIter : ℕ) (o : LoopOut ℝ) : Bool := decide ((lastIter o : ℤ) = (maxIter : ℤ) - 1)

/-- `_convergence_check` (networks/network.py 658-661): does the assertion hold? -/
def convergenceCheck (o : LoopOut ℝ) : Bool := !o.linDep && o.converged

end Tespy
