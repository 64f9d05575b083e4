import Verif.Spec.Shear
import Mathlib.Logic.Relation

/-! Vocabulary for zero-energy modes: connected meshes, positive definite laminates, supports. Only the data fields of `Mesh` are
used. -/

set_option autoImplicit false

namespace Meshless.Spec
open Finset

/-- two triangles have an edge in common -/
def Adjacent (m : Mesh) (e e' : ℕ) : Prop := ∃ k ∈ m.ekeys, e ∈ (m.edge k).trias ∧ e' ∈ (m.edge k).trias

/-- A one-piece plate: one can walk from every triangle to every other across common edges, and every node is the corner of some
triangle. -/
structure OnePiece (m : Mesh) : Prop where
  walk : ∀ e ∈ m.eids, ∀ e' ∈ m.eids, Relation.ReflTransGen (Adjacent m) e e'
  used : ∀ i ∈ m.nids, ∃ e ∈ m.eids, IsCorner m e i

/-- the laminates read with the given flag: those of the nodes or those of the triangles -/
def InUse (m : Mesh) (pn : Bool) (l : Lam) : Prop :=
  if pn then ∃ i ∈ m.nids, (m.node i).prop = some l else ∃ e ∈ m.eids, (m.tria e).prop = some l

/-- the laminate matrix `[A B; B D]` is positive definite -/
def StiffABD (l : Lam) : Prop := ∀ x : Fin 6 → ℝ, x ≠ 0 → 0 < ∑ p, ∑ q, x p * abd l p q * x q

/-- thickness, shear moduli and shear correction factors are positive -/
def StiffShear (l : Lam) : Prop := 0 < l.h ∧ 0 < l.k13 ∧ 0 < l.k23 ∧ 0 < l.E 0 0 ∧ 0 < l.E 1 1

/-- the pair of nodal fields `(f, g)` is an infinitesimal rigid motion of the plane: translation `(a, b)` and rotation `c` -/
def RigidField (m : Mesh) (f g : ℕ → ℝ) (a b c : ℝ) : Prop := ∀ i ∈ m.nids, f i = a - c * ny m i ∧ g i = b + c * nx m i

/-- the corner from which the method without smoothing measures the shear gaps: the first corner of a counter-clockwise triangle, the
second of a clockwise one -/
noncomputable def gapOrigin (m : Mesh) (e : ℕ) : ℕ := if 0 < sarea m (tpoly m e) then (m.tria e).n1 else (m.tria e).n2

/-- factor of the rotations in the shear strains of the two cell methods: 1 without smoothing, `1 + 10^-15` with smoothing (from the
literal `0.166666666666667`) -/
noncomputable def rotFactor (method : String) : ℝ := if method = "cell-based" then 1 + 1 / 10 ^ 15 else 1

/-- hypotheses common to the statements about the stiffness matrix -/
structure GoodPlate (m : Mesh) (pn : Bool) : Prop where
  proper : Proper m
  planar : Planar m
  piece : OnePiece m
  abd : ∀ l, InUse m pn l → StiffABD l
  shear : ∀ l, InUse m pn l → StiffShear l

/-- the degree of freedom `r` of node `i` in a displacement or force vector -/
def dofNo (m : Mesh) (i r : ℕ) : ℕ := 5 * m.nids.idxOf i + r

/-- The supports hold the plate: either two nodes at different places are clamped (all five degrees of freedom fixed), or `u`, `v`, `w` and
`phix` are fixed at two nodes of different `y`, as in the project's cantilever tests. -/
def Held (m : Mesh) (S : Set ℕ) : Prop := ∃ i ∈ m.nids, ∃ j ∈ m.nids,
  ((nx m i ≠ nx m j ∨ ny m i ≠ ny m j) ∧ ∀ r < 5, dofNo m i r ∈ S ∧ dofNo m j r ∈ S) ∨
  (ny m i ≠ ny m j ∧ ∀ r < 4, dofNo m i r ∈ S ∧ dofNo m j r ∈ S)

/-- The supports exclude every rigid motion: translations `a`, `b` and rotation `c` in the plane, translation `s` along `z` and tilts `p`, `q`
about the in-plane axes (tilting turns the normals by the same angles). -/
def Fixed (m : Mesh) (S : Set ℕ) : Prop := ∀ a b c p q s : ℝ,
  (∀ i ∈ m.nids, (dofNo m i 0 ∈ S → a - c * ny m i = 0) ∧ (dofNo m i 1 ∈ S → b + c * nx m i = 0) ∧
    (dofNo m i 2 ∈ S → s - (p * nx m i + q * ny m i) = 0) ∧ (dofNo m i 3 ∈ S → p = 0) ∧ (dofNo m i 4 ∈ S → q = 0)) →
  a = 0 ∧ b = 0 ∧ c = 0 ∧ p = 0 ∧ q = 0 ∧ s = 0

/-- a node on the boundary of the plate: end of an edge with only one triangle -/
def OnBoundary (m : Mesh) (i : ℕ) : Prop := ∃ k ∈ m.ekeys, (m.edge k).trias.length = 1 ∧ (i = k.1 ∨ i = k.2)

end Meshless.Spec
