import Mathlib.Data.Real.Basic
import Mathlib.Algebra.BigOperators.Group.Finset.Basic

/-! Specification of polygon area: the shoelace formula, written with cyclic indices. -/

set_option autoImplicit false

namespace Meshless.Spec

/-- Twice the signed area of the polygon with vertices `(x_i, y_i)`, `i = 0 .. n-1`. -/
noncomputable def shoelace (x y : List ℝ) : ℝ :=
  ∑ i ∈ Finset.range x.length,
    (x.getD i 0 * y.getD ((i + 1) % x.length) 0 - x.getD ((i + 1) % x.length) 0 * y.getD i 0)

end Meshless.Spec
