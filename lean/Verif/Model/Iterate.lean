import Verif.Model.Solver
/-
The iteration with its state: what `solve_control` does to the variables, and which values are
reported (networks/network.py 1962-2068, 2305-2326).
-/
namespace Tespy
variable {K : Type} [Field K] [LinearOrder K]

/-- An equation system as the solver sees it, for values `S` of all variables: norm of the
residuals (`none`: nan), whether the jacobian cannot be inverted, and the values after the increment
has been added and the bounds have been checked (`update_variables`, `check_variable_bounds`,
networks/network.py 2248-2303). -/
structure EqSys (S K : Type) where
  norm : S → Option K
  singular : S → Bool
  update : S → S

variable {S : Type}

/-- Values of the variables at the beginning of iteration `n` (`solve_control`, networks/network.py
2305-2326: residuals and jacobian first, no update if the jacobian is singular). -/
def EqSys.state (sys : EqSys S K) (x0 : S) : ℕ → S
  | 0 => x0
  | n + 1 => if sys.singular (sys.state x0 n) then sys.state x0 n else sys.update (sys.state x0 n)

/-- What iteration `i` leaves behind: `residual_history[i]` and `lin_dep` (networks/network.py 2028-2036). -/
def EqSys.out (sys : EqSys S K) (x0 : S) (i : ℕ) : Iter K :=
  ⟨sys.norm (sys.state x0 i), sys.singular (sys.state x0 i)⟩

/-- `solve_loop` (networks/network.py 2014-2068) with the values left on the connections and
components, which `postprocessing` reports. -/
def EqSys.solve (sys : EqSys S K) (thr : K) (minIter : ℤ) (maxIter : ℕ) (x0 : S) : S × LoopOut K :=
  let r := solveLoop (sys.out x0) thr minIter maxIter 0
  (sys.state x0 r.iters, r)

/-- One variable and one user defined equation `f x = 0` with derivative `df`
(tools/helpers.py 164-379, networks/network.py 2225-2258): the increment is
`inv(jacobian).dot(-residual)`. -/
def oneEquation (f df : K → K) : EqSys K K where
  norm := fun x => some |f x|
  singular := fun x => decide (df x = 0)
  update := fun x => x + (df x)⁻¹ * -(f x)

end Tespy
