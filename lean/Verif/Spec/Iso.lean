import Verif.Spec.Plate

/-! Vocabulary for describing the same plate differently: other node and element numbers, another order of corners, nodes, elements
and edges, a shifted origin, another unit of length. -/

set_option autoImplicit false

namespace Meshless.Spec

/-- `m'` is the plate `m` with node `i` called `π i`, triangle `e` called `σ e`, corners listed in any order, and the plane
coordinates `(s*x + a, s*y + b)` in place of `(x, y)`. -/
structure SamePlate (π σ : ℕ → ℕ) (s a b : ℝ) (m m' : Mesh) : Prop where
  nids : m'.nids.Perm (m.nids.map π)
  eids : m'.eids.Perm (m.eids.map σ)
  tri : ∀ e ∈ m.eids, (corners m' (σ e)).Perm ((corners m e).map π)
  tprop : ∀ e ∈ m.eids, (m'.tria (σ e)).prop = (m.tria e).prop
  hx : ∀ i ∈ m.nids, nx m' (π i) = s * nx m i + a
  hy : ∀ i ∈ m.nids, ny m' (π i) = s * ny m i + b
  nprop : ∀ i ∈ m.nids, (m'.node (π i)).prop = (m.node i).prop

end Meshless.Spec
