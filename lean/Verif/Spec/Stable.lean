import Verif.Spec.Cst

/-! Vocabulary for uniform stability: bounds of laminates, size of the strains of the linear interpolation. -/

set_option autoImplicit false

namespace Meshless.Spec
open Finset

/-- the laminate matrix `[A B; B D]` is at least `c` -/
def AtLeast (c : ℝ) (l : Lam) : Prop := ∀ x : Fin 6 → ℝ, c * ∑ p, x p ^ 2 ≤ ∑ p, ∑ q, x p * abd l p q * x q

/-- the laminate matrix `[A B; B D]` is at most `c` -/
def AtMost (c : ℝ) (l : Lam) : Prop := ∀ x : Fin 6 → ℝ, ∑ p, ∑ q, x p * abd l p q * x q ≤ c * ∑ p, x p ^ 2

/-- squared size of the strains and curvatures of the linear interpolation: `∫ |eps|^2` over the triangles -/
noncomputable def strainSize (m : Mesh) (v : ℕ → ℝ) : ℝ := (m.eids.map fun e => triArea m e * ∑ p, triEps m e v p ^ 2).sum

end Meshless.Spec
