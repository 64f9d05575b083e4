import Verif.Spec.Converge

/-! Supports along the boundary that leave some directions free: hinged sides, sides on a line of symmetry. -/

set_option autoImplicit false

namespace Meshless.Spec

/-- direction `r` is fixed at both ends of edge `k` -/
def FixedOn (m : Mesh) (S : Set ℕ) (r : ℕ) (k : Key) : Prop := 5 * m.nids.idxOf k.1 + r ∈ S ∧ 5 * m.nids.idxOf k.2 + r ∈ S

/-- edges on the boundary -/
def IsRim (m : Mesh) (k : Key) : Prop := k ∈ m.ekeys ∧ (m.edge k).trias.length = 1

/-- On every edge of the boundary, one of the directions `p` and `q` is fixed, or both are at one end: what remains free at the two ends is parallel. -/
def OneFree (m : Mesh) (S : Set ℕ) (p q : ℕ) : Prop := ∀ k, IsRim m k → FixedOn m S p k ∨ FixedOn m S q k ∨
  (5 * m.nids.idxOf k.1 + p ∈ S ∧ 5 * m.nids.idxOf k.1 + q ∈ S) ∨ (5 * m.nids.idxOf k.2 + p ∈ S ∧ 5 * m.nids.idxOf k.2 + q ∈ S)

/-- The values in direction `r` are held along lines in direction `x`: on every edge of the boundary the direction is fixed, except for edges along `x` and
edges on the line `x = x0`. The plate lies within `R` of that line. -/
def HeldAlongX (m : Mesh) (S : Set ℕ) (R : ℝ) (r : ℕ) : Prop := ∃ x0, (∀ e ∈ m.eids, ∀ i, IsCorner m e i → |nx m i - x0| ≤ R) ∧
  ∀ k, IsRim m k → FixedOn m S r k ∨ ny m k.1 = ny m k.2 ∨ (nx m k.1 = x0 ∧ nx m k.2 = x0)

/-- the same along lines in direction `y` -/
def HeldAlongY (m : Mesh) (S : Set ℕ) (R : ℝ) (r : ℕ) : Prop := ∃ y0, (∀ e ∈ m.eids, ∀ i, IsCorner m e i → |ny m i - y0| ≤ R) ∧
  ∀ k, IsRim m k → FixedOn m S r k ∨ nx m k.1 = nx m k.2 ∨ (ny m k.1 = y0 ∧ ny m k.2 = y0)

/-- The supports guide the rotations: on each side of the boundary at most one of the two is free, and both are held along lines in `x` or `y`. Clamped sides
and, for plates with sides along the axes, hinged sides and lines of symmetry are of this kind. -/
structure RotGuided (m : Mesh) (S : Set ℕ) (R : ℝ) : Prop where
  oneFree : OneFree m S 3 4
  held : ∀ r, r = 3 ∨ r = 4 → HeldAlongX m S R r ∨ HeldAlongY m S R r

/-- The supports guide all displacements: those in the plane and the rotations as above, the deflection is held along lines in `x` or `y`. -/
structure Guided (m : Mesh) (S : Set ℕ) (R : ℝ) : Prop where
  plane : OneFree m S 0 1
  rot : OneFree m S 3 4
  held : ∀ r < 5, HeldAlongX m S R r ∨ HeldAlongY m S R r

end Meshless.Spec
