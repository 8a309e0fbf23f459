import Mathlib.Algebra.Order.Field.Basic
/-
Specification for characteristic lines: the straight line through two points.
-/
namespace Tespy.Spec
variable {K : Type _} [Field K]

/-- Ordinate at `v` of the straight line through `(x0, y0)` and `(x1, y1)`. -/
def lineThrough (x0 y0 x1 y1 v : K) : K := y0 + (y1 - y0) / (x1 - x0) * (v - x0)

end Tespy.Spec
