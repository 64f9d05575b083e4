import Verif.Spec.Buckling
import Verif.Spec.Converge

/-! Vocabulary for lower bounds of buckling factors: the slopes of a deflection and the compression of a pre-stress. -/

set_option autoImplicit false

namespace Meshless.Spec

/-- squared slope of the linear interpolation of the deflections, integrated over the plate -/
noncomputable def slopeSize (m : Mesh) (v : ℕ → ℝ) : ℝ :=
  (m.eids.map fun e => triArea m e * (gradX m (tpoly m e) (disp m v 2) ^ 2 + gradY m (tpoly m e) (disp m v 2) ^ 2)).sum

/-- the compressive membrane forces of `d` are nowhere, in no direction, larger than `N` -/
def CompressionAtMost (m : Mesh) (pn : Bool) (d : ℕ → ℝ) (N : ℝ) : Prop := ∀ k ∈ m.ekeys, ∀ a b : ℝ,
  -(N * (a ^ 2 + b ^ 2)) ≤ a * a * membrane m pn k d 0 + 2 * a * b * membrane m pn k d 2 + b * b * membrane m pn k d 1

end Meshless.Spec
