import Mathlib.Data.Int.Notation
import Mathlib.Tactic.Common

/-! Input-level vocabulary for meshes: triangles are triples of point positions (0-based), node ids are positions + 1. -/

set_option autoImplicit false

namespace Meshless.Spec

/-- node id `nid` is a corner of the triangle `t` -/
def Corner (t : ℕ × ℕ × ℕ) (nid : ℕ) : Prop := nid = t.1 + 1 ∨ nid = t.2.1 + 1 ∨ nid = t.2.2 + 1

/-- the triangle refers to three different points of a cloud of `N` -/
def ValidTri (N : ℕ) (t : ℕ × ℕ × ℕ) : Prop :=
  t.1 < N ∧ t.2.1 < N ∧ t.2.2 < N ∧ t.1 ≠ t.2.1 ∧ t.2.1 ≠ t.2.2 ∧ t.2.2 ≠ t.1

/-- the index triples as integers, as `tri.simplices` holds them -/
def toInts (tris : List (ℕ × ℕ × ℕ)) : List (ℤ × ℤ × ℤ) := tris.map fun t => ((t.1 : ℤ), (t.2.1 : ℤ), (t.2.2 : ℤ))

end Meshless.Spec
