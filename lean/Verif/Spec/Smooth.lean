import Verif.Spec.Plate
import Mathlib.Analysis.Real.Sqrt

/-! Vocabulary for the boundary of a smoothing domain and the integration points on it. -/

set_option autoImplicit false

namespace Meshless.Spec

/-- elevation of a node -/
def nz (m : Mesh) (i : ℕ) : ℝ := (m.node i).xyz.z

/-- The sides of an edge's smoothing domain, each with a vertex on the inner side: the opposite end node for a side that ends
at a centroid (so that the triangle of the three lies in the domain), the centroid for the edge itself when it is on the boundary. -/
def segs (m : Mesh) (k : Key) : List (List ℕ × List ℕ × List ℕ) :=
  match (m.edge k).trias with
  | [t] => [([k.1], corners m t, [k.2]), (corners m t, [k.2], [k.1]), ([k.2], [k.1], corners m t)]
  | [t1, t2] => [([k.1], corners m t1, [k.2]), (corners m t1, [k.2], [k.1]), ([k.2], corners m t2, [k.1]), (corners m t2, [k.1], [k.2])]
  | _ => []

/-- the segments are the sides of the smoothing domain -/
theorem segs_sides (m : Mesh) (k : Key) : (segs m k).map (fun s => (s.1, s.2.1)) = sides (dom m k) := by
  unfold segs dom
  rcases (m.edge k).trias with _ | ⟨t1, _ | ⟨t2, _ | ⟨t3, l⟩⟩⟩ <;> rfl

/-- `p` is an integration point for the segment `A B` of a domain that has the vertex `C` on the inner side -/
structure IsIPt (m : Mesh) (p : IPt) (A B C : List ℕ) : Prop where
  midx : p.xyz.x = (mean (nx m) A + mean (nx m) B) / 2
  midy : p.xyz.y = (mean (ny m) A + mean (ny m) B) / 2
  midz : p.xyz.z = (mean (nz m) A + mean (nz m) B) / 2
  len : p.le = Real.sqrt ((mean (nx m) B - mean (nx m) A) ^ 2 + (mean (ny m) B - mean (ny m) A) ^ 2)
  unit : p.nx ^ 2 + p.ny ^ 2 = 1
  flat : p.nz = 0
  perp : p.nx * (mean (nx m) B - mean (nx m) A) + p.ny * (mean (ny m) B - mean (ny m) A) = 0
  out : p.nx * (mean (nx m) C - p.xyz.x) + p.ny * (mean (ny m) C - p.xyz.y) < 0
  nonneg : 0 ≤ p.f1 ∧ 0 ≤ p.f2 ∧ 0 ≤ p.f3
  one : p.f1 + p.f2 + p.f3 = 1
  tria : p.tria ∈ m.eids ∧ [p.n1, p.n2, p.n3].Perm (corners m p.tria)
  field : ∀ f : ℕ → ℝ, p.f1 * f p.n1 + p.f2 * f p.n2 + p.f3 * f p.n3 = (mean f A + mean f B) / 2

end Meshless.Spec
