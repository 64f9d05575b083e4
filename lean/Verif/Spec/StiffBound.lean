import Verif.Spec.ShearBound
import Verif.Spec.Condition

/-! Vocabulary for the matrix and the static solution in double precision (C158, C159). -/

set_option autoImplicit false

namespace Meshless.Spec

/-- the distance allowed in `StiffWithin`, from the positions in the matrix -/
noncomputable def stiffErr (m : Mesh) (P : ℕ → ℕ → ℝ) (E0 M0 E M : ℝ) (p q : ℕ) : ℝ :=
  let i := m.nids.getD (p / 5) 0
  let j := m.nids.getD (q / 5) 0
  let n := (shearCount m i j (p % 5) (q % 5) : ℝ)
  P (p % 5) (q % 5) * (16 * contributions m i j * (E0 + 4 * contributions m i j * M0 + 1) + 2 * n * (E + 4 * contributions m i j * M0 + n * M + 1)) / 2 ^ 53

open Classical in
/-- every node is a corner of at most `v` triangles -/
def Valence (m : Mesh) (v : ℕ) : Prop := ∀ i ∈ m.nids, (m.eids.countP fun e => IsCorner m e i) ≤ v

open Classical in
/-- the number of edges with one triangle -/
noncomputable def rimCount (m : Mesh) : ℕ := m.ekeys.countP fun k => OneTria m k

/-- a bound on the errors in one row of the matrix: at most `v` triangles at a node, `b` edges with one triangle, `p` the largest of the `P` -/
noncomputable def rowErr (p E0 M0 E M : ℝ) (v b : ℕ) : ℝ :=
  5 * p * (64 * (3 * v + b) * (E0 + 4 * (3 * v + b) * M0 + 1) + 6 * v * (E + 4 * (3 * v + b) * M0 + v * M + 1)) / 2 ^ 53

/-- length of a vector with `n` entries -/
noncomputable def len (n : ℕ) (v : ℕ → ℝ) : ℝ := √(sqLen n v)

/-- the energy of the supported displacements is at least `c` times their squared length -/
def StiffAtLeast (K : Mat) (S : Set ℕ) (c : ℝ) : Prop := ∀ v, Supported K.dim S v → c * sqLen K.dim v ≤ form K.dim K.get v v

end Meshless.Spec
