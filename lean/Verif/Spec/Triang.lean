import Verif.Spec.Plate
import Mathlib.Data.Set.Basic
import Mathlib.Order.Disjoint
import Mathlib.Logic.Relation

/-! Triangulations of a region of the plane: triangles as sets of points, not overlapping. -/

set_option autoImplicit false

namespace Meshless.Spec

/-- the points strictly inside the triangle `a b c`: weighted averages of the corners with positive weights -/
def openTri (a b c : ℝ × ℝ) : Set (ℝ × ℝ) :=
  {p | ∃ α β γ : ℝ, 0 < α ∧ 0 < β ∧ 0 < γ ∧ α + β + γ = 1 ∧ p = (α * a.1 + β * b.1 + γ * c.1, α * a.2 + β * b.2 + γ * c.2)}

/-- three points on a line -/
def OnLine (a b c : ℝ × ℝ) : Prop := (b.1 - a.1) * (c.2 - a.2) = (c.1 - a.1) * (b.2 - a.2)

/-- the place of a node -/
def nodeAt (m : Mesh) (i : ℕ) : ℝ × ℝ := (nx m i, ny m i)

/-- the inside of a triangle of the mesh -/
def inside (m : Mesh) (e : ℕ) : Set (ℝ × ℝ) := openTri (nodeAt m (m.tria e).n1) (nodeAt m (m.tria e).n2) (nodeAt m (m.tria e).n3)

/-- A triangulation of a region of the plane: basic coordinates, one common `z`, the corners of a triangle not on a line, triangles not overlapping. -/
structure Triangulation (m : Mesh) : Prop where
  basic : ∀ i ∈ m.nids, (m.node i).cp (m.node i).xyz = (m.node i).xyz
  flat : ∀ i ∈ m.nids, ∀ j ∈ m.nids, (m.node i).xyz.z = (m.node j).xyz.z
  nondeg : ∀ e ∈ m.eids, ¬ OnLine (nodeAt m (m.tria e).n1) (nodeAt m (m.tria e).n2) (nodeAt m (m.tria e).n3)
  apart : ∀ e ∈ m.eids, ∀ e' ∈ m.eids, e ≠ e' → Disjoint (inside m e) (inside m e')

/-- the same for the input of `read_delaunay`: `P i` is the place of point `i` (from 0), `z i` its height -/
structure InputTriangulation (N : ℕ) (P : ℕ → ℝ × ℝ) (z : ℕ → ℝ) (tris : List (ℕ × ℕ × ℕ)) : Prop where
  range : ∀ t ∈ tris, t.1 < N ∧ t.2.1 < N ∧ t.2.2 < N
  flat : ∀ i < N, ∀ j < N, z i = z j
  nondeg : ∀ t ∈ tris, ¬ OnLine (P t.1) (P t.2.1) (P t.2.2)
  apart : tris.Pairwise fun t t' => Disjoint (openTri (P t.1) (P t.2.1) (P t.2.2)) (openTri (P t'.1) (P t'.2.1) (P t'.2.2))

/-- point number `i` is a corner of the triple `t` -/
def InTri (t : ℕ × ℕ × ℕ) (i : ℕ) : Prop := i = t.1 ∨ i = t.2.1 ∨ i = t.2.2

/-- two triples have two points in common -/
def ShareSide (t t' : ℕ × ℕ × ℕ) : Prop := ∃ a b, a ≠ b ∧ InTri t a ∧ InTri t b ∧ InTri t' a ∧ InTri t' b

/-- the region is in one piece: one can walk between any two triangles across common sides, and no point is left over -/
structure InputOnePiece (N : ℕ) (tris : List (ℕ × ℕ × ℕ)) : Prop where
  walk : ∀ t ∈ tris, ∀ t' ∈ tris, Relation.ReflTransGen (fun s s' => s ∈ tris ∧ s' ∈ tris ∧ ShareSide s s') t t'
  used : ∀ i < N, ∃ t ∈ tris, InTri t i

end Meshless.Spec
