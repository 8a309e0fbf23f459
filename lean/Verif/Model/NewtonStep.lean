import Mathlib.LinearAlgebra.Matrix.NonsingularInverse
import Verif.Model.Checks
/-!
One iteration of the solver with all its parts: residuals, jacobian, increment, update of the variables and checks
(`matrix_inversion`, `update_variables`, `check_variable_bounds`, `solve_control`, networks/network.py 2228-2326) and the
loop over the iterations (2014-2068).

Simplifications: residuals and jacobian are functions of the values of the variables and raise no exception; arithmetic is
exact, so the matrix is not invertible exactly if its determinant is zero. Jacobian entries which are not updated because of
`increment_filter` belong to values which have not changed.
-/
namespace Tespy
variable {K : Type} [Field K] [LinearOrder K] {n : ℕ}

/-- A network during the iteration: `variables_dict` with the columns (`J_col`), the kind of the property containers, bounds
of component variables, `ERR`, residuals and jacobian of all equations, `numpy.linalg.norm`, and what the checks use
(networks/network.py 2228-2326: the attributes read there). -/
structure NetSys (K : Type) (n : ℕ) where
  owners : List Owner
  col : Owner → ℕ
  kind : ℕ → PropKind
  lo : ℕ → String → K
  hi : ℕ → String → K
  err : K
  res : VVals K → Fin n → K
  jac : VVals K → Matrix (Fin n) (Fin n) K
  nrm : (Fin n → K) → K
  env : ChkEnv K
  fuel : ℕ
  conns : List (ChkConn K)
  comps : List (ChkComp K)

/-- `matrix_inversion` (networks/network.py 2228-2245); `none`: singular. -/
noncomputable def NetSys.increment (S : NetSys K n) (v : VVals K) : Option (Fin n → K) :=
  if (S.jac v).det = 0 then none else some ((S.jac v)⁻¹.mulVec (-(S.res v)))

/-- `increment[J_col]` (networks/network.py 2253-2279); the columns are valid (C21), so the default is not used. -/
def incAt (d : Fin n → K) (j : ℕ) : K := if h : j < n then d ⟨j, h⟩ else 0

/-- The values as the checks see them (networks/network.py 2283-2303). -/
def VVals.toChk (v : VVals K) : ChkState K := ⟨fun _ i => v.prop i, v.fluid⟩

/-- The values after the checks (networks/network.py 2283-2303). -/
def VVals.ofChk (kind : ℕ → PropKind) (v : VVals K) (s : ChkState K) : VVals K :=
  { v with prop := fun i => s.val (kind i) i, fluid := s.frac }

/-- `solve_control` (networks/network.py 2305-2326) in iteration `iter`: values, `lin_dep` and exception. -/
noncomputable def NetSys.step (S : NetSys K n) (iter : ℕ) (v : VVals K) : VVals K × Bool × Option PyErr :=
  match S.increment v with
  | none => (v, true, none)
  | some d =>
    let v1 := updateVariables S.err S.kind S.lo S.hi (incAt d) S.col S.owners v
    let r := checkBounds S.env S.fuel iter S.conns S.comps v1.toChk
    (v1.ofChk S.kind r.1, false, r.2)

/-- Values at the beginning of iteration `i`, and the exception which has ended the calculation before
(networks/network.py 2028-2036). -/
noncomputable def NetSys.state (S : NetSys K n) (v0 : VVals K) : ℕ → VVals K × Option PyErr
  | 0 => (v0, none)
  | i + 1 => match S.state v0 i with
    | (v, some e) => (v, some e)
    | (v, none) => ((S.step i v).1, (S.step i v).2.2)

/-- `residual_history[i]` and `lin_dep` (networks/network.py 2032-2036) -/
noncomputable def NetSys.out (S : NetSys K n) (v0 : VVals K) (i : ℕ) : Iter K :=
  ⟨some (S.nrm (S.res (S.state v0 i).1)), (S.step i (S.state v0 i).1).2.1⟩

/-- `solve_loop` (networks/network.py 2014-2068): values and flags, or the exception of one of the iterations. -/
noncomputable def NetSys.solve (S : NetSys K n) (thr : K) (minIter : ℤ) (maxIter : ℕ) (v0 : VVals K) :
    PyRes (VVals K × LoopOut K) :=
  let r := solveLoop (S.out v0) thr minIter maxIter 0
  match S.state v0 r.iters with
  | (_, some e) => .error e
  | (v, none) => .ok (v, r)

end Tespy
