import Verif.Spec.Geometric
import Verif.Model.Session

/-! Nodes moved between `calc_k0` and the other functions. -/

set_option autoImplicit false

namespace Meshless.Spec
open Finset

/-- `mesh.nodes[i].xyz = x` for every pair `(i, x)` of a list, in order -/
def moves (mv : List (ℕ × Vec3)) : List Op := mv.map fun p => .moveNode p.1 p.2

/-- the laminate quantity of an edge's domain that results from the areas of triangles of `n` over those of `m`: on a boundary edge the
triangle's own value -/
noncomputable def staleAvg (m n : Mesh) (k : Key) (sel : Lam → ℝ) : ℝ :=
  match (m.edge k).trias with
  | [t] => ofProp sel (m.tria t).prop
  | ts => (ts.map fun t => triArea n t * ofProp sel (m.tria t).prop).sum / (ts.map (triArea m)).sum

/-- membrane forces with the strains of the mesh `m` and such a laminate -/
noncomputable def staleMembrane (m n : Mesh) (k : Key) (d : ℕ → ℝ) (i : Fin 3) : ℝ :=
  ∑ j : Fin 3, (staleAvg m n k (fun l => l.A i j) * eps m k d (Fin.castLE (by decide) j) + staleAvg m n k (fun l => l.B i j) * eps m k d (Fin.natAdd 3 j))

/-- `Σ_edges area * (grad w(v))^T [Nxx Nxy; Nxy Nyy] (grad w(u))` with areas, gradients and strains of `m` and those membrane forces -/
noncomputable def staleGeometric (m n : Mesh) (d v u : ℕ → ℝ) : ℝ :=
  (m.ekeys.map fun k =>
    let gx := fun z => gradX m (dom m k) (disp m z 2)
    let gy := fun z => gradY m (dom m k) (disp m z 2)
    |sarea m (dom m k)| * (gx v * staleMembrane m n k d 0 * gx u + gx v * staleMembrane m n k d 2 * gy u
      + gy v * staleMembrane m n k d 2 * gx u + gy v * staleMembrane m n k d 1 * gy u)).sum

end Meshless.Spec
