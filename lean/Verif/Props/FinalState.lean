import Mathlib.Algebra.Order.Field.Rat
import Mathlib.Tactic.Linarith
import Mathlib.Tactic.NormNum
import Mathlib.Tactic.FieldSimp
import Mathlib.Tactic.Ring
import Verif.Model.Iterate
import Verif.Props.SolveLoop
/-
C68: do the reported values satisfy the equations?
-/
namespace Tespy
variable {K : Type} [Field K] [LinearOrder K] {S : Type}

/-- C68, what holds: if a calculation is reported as converged, the values *before* the last update
(and those before the last but one) have a residual norm below the threshold; the reported values are
one further step away. -/
theorem C68_last_step_partial (sys : EqSys S K) (thr : K) (minIter : ℤ) (maxIter : ℕ) (x0 : S)
    (h : (sys.solve thr minIter maxIter x0).2.converged = true) :
    ∃ i, (sys.solve thr minIter maxIter x0).2.iters = i + 1 ∧
      (sys.solve thr minIter maxIter x0).1 = sys.update (sys.state x0 i) ∧
      (∃ r, sys.norm (sys.state x0 i) = some r ∧ r < thr) ∧
      (i ≠ 0 → ∃ r, sys.norm (sys.state x0 (i - 1)) = some r ∧ r < thr) := by
  obtain ⟨i, hi, hc⟩ := C23_sound (sys.out x0) thr minIter maxIter h
  refine ⟨i, hi, ?_, hc.last, hc.before⟩
  have hr := hc.regular
  simp only [EqSys.out] at hr
  simp only [EqSys.solve, hi, EqSys.state, hr]
  rfl

/-- C68: the reported values satisfy the equations if one more step from values with small residuals
does not enlarge the residuals. -/
theorem C68_contracting_partial (sys : EqSys S K) (thr : K) (minIter : ℤ) (maxIter : ℕ) (x0 : S)
    (hstep : ∀ x r, sys.norm x = some r → r < thr → ∃ r', sys.norm (sys.update x) = some r' ∧ r' ≤ r)
    (h : (sys.solve thr minIter maxIter x0).2.converged = true) :
    ∃ r, sys.norm (sys.solve thr minIter maxIter x0).1 = some r ∧ r < thr := by
  obtain ⟨i, _, hx, ⟨r, hr, hlt⟩, _⟩ := C68_last_step_partial sys thr minIter maxIter x0 h
  obtain ⟨r', h1, h2⟩ := hstep _ r hr hlt
  exact ⟨r', by rw [hx]; exact h1, lt_of_le_of_lt h2 hlt⟩

/-- C68 for linear equations: the reported value satisfies the equation exactly. -/
theorem C68_linear_partial (a b : K) (thr : K) (minIter : ℤ) (maxIter : ℕ) (x0 : K)
    (h : ((oneEquation (fun x => a * x + b) (fun _ => a)).solve thr minIter maxIter x0).2.converged = true) :
    a * ((oneEquation (fun x => a * x + b) (fun _ => a)).solve thr minIter maxIter x0).1 + b = 0 := by
  obtain ⟨i, hi, hc⟩ := C23_sound _ thr minIter maxIter h
  have hr := hc.regular
  simp only [EqSys.out, oneEquation, decide_eq_false_iff_not] at hr
  obtain ⟨j, _, hx, _, _⟩ := C68_last_step_partial _ thr minIter maxIter x0 h
  rw [hx]
  generalize EqSys.state _ _ _ = x
  simp only [oneEquation]
  field_simp
  ring

-- non-vacuity: a linear equation converges
example : ((oneEquation (fun x : ℚ => 3 * x + 6) (fun _ => 3)).solve (1 / 1000) 4 50 10) =
    (-2, ⟨4, true, true, false⟩) := by decide +kernel

/-- an equation without solution: m² + 0.0001 = 0 -/
def noSolution (m : ℚ) : ℚ := m ^ 2 + 1 / 10000

/-- C68 is false: for the equation m² + 0.0001 = 0, which no value satisfies, the calculation with
starting value 0.05027 and the default settings (threshold `ERR ** 0.5` = 1/1000, at least 4
iterations) is reported as converged, with a value above 48 whose residual is above 2300. -/
theorem C68_false : (∀ m, 0 < noSolution m) ∧
    ((oneEquation noSolution (fun m => 2 * m)).solve (1 / 1000) 4 50 (5027 / 100000)).2 =
      ⟨4, true, true, false⟩ ∧
    48 < ((oneEquation noSolution (fun m => 2 * m)).solve (1 / 1000) 4 50 (5027 / 100000)).1 ∧
    2300 < noSolution ((oneEquation noSolution (fun m => 2 * m)).solve (1 / 1000) 4 50 (5027 / 100000)).1 := by
  refine ⟨fun m => ?_, by decide +kernel, by decide +kernel, by decide +kernel⟩
  unfold noSolution
  have := sq_nonneg m
  linarith

end Tespy
