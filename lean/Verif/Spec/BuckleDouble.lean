import Verif.Spec.StiffBound
import Verif.Spec.BoundKG
import Verif.Spec.FmtModal

/-! Vocabulary for buckling factors in double precision (C161). -/

set_option autoImplicit false

namespace Meshless.Spec
open Finset

/-- a bound on the errors in one row of kG: at most `v` triangles at a node, `b` edges with one triangle, membrane forces of the order of `n`, from displacements
off by `e` -/
noncomputable def kGRowErr (n e E M : ℝ) (v b : ℕ) : ℝ := 4 * (3 * v + b) * (8 * n * (E + 4 * (3 * v + b) * M + 1) / 2 ^ 53 + 4 * M * e)

/-- `c`, `x` are a computed buckling factor and mode, possibly complex: zero at the supports, not zero everywhere, and at the free degrees of freedom the
residual of `(K + c G) x = 0` has at most `ε` times the length of `x` -/
def ModeResidual (K G : Mat) (S : Set ℕ) (c : ℂ) (x : ℕ → ℂ) (ε : ℝ) : Prop :=
  (∃ i < K.dim, x i ≠ 0) ∧ (∀ i < K.dim, i ∈ S → x i = 0) ∧
    freeSq K.dim S (fun i => ‖∑ j ∈ range K.dim, ((K.get i j : ℂ) + c * (G.get i j : ℂ)) * x j‖) ≤ ε ^ 2 * sqLen K.dim fun i => ‖x i‖

end Meshless.Spec
