import Verif.Spec.Bound
import Verif.Spec.Geometric
import Verif.Spec.Modes
import Verif.Model.KG

/-! Vocabulary for the explicit error bound of `calc_kG` in double precision (C160). -/

set_option autoImplicit false

namespace Meshless.Spec

/-- Around every edge there is a length `l` of medium size that its triangles fit, and relative to it the displacements `x` are small: `u` and `v` are up to
`n l / (1024 a)`, the rotations up to `n l / (1024 b)`. With laminate entries up to `a` and `b` that makes membrane forces of the order of `n`. -/
def Loaded (m : Mesh) (σ G a b n : ℝ) (x : ℕ → ℝ) : Prop :=
  ∀ k ∈ m.ekeys, ∃ l, Medium l ∧ (∀ t ∈ (m.edge k).trias, FitsAt m σ G l t) ∧
    ∀ i ∈ m.nids, (∀ r < 2, |x (dofNo m i r)| ≤ n * l / (1024 * a)) ∧ ∀ r, r = 3 ∨ r = 4 → |x (dofNo m i r)| ≤ n * l / (1024 * b)

open Classical in
/-- the number of edges that contribute to the entries of kG for the nodes `i` and `j` -/
noncomputable def contributionsKG (m : Mesh) (i j : ℕ) : ℕ := m.ekeys.countP fun k => WritesKG m k i ∧ WritesKG m k j

/-- the distance allowed between a computed and the exact entry of kG that `c` edges contribute to: `n * 8c(E + 4cM + 1) / 2^53` between two deflections `w`,
none elsewhere -/
noncomputable def kGErr (c : ℕ) (n E M : ℝ) (r s : ℕ) : ℝ := if r = 2 ∧ s = 2 then n * (8 * c * (E + 4 * c * M + 1)) / 2 ^ 53 else 0

/-- In the format `f`, `calc_kG` for the displacements `d` returns a matrix of finite numbers close to the exact matrix. -/
def KGWithin (f : Fmt) (m : Mesh) (pn : Bool) (d : List ℝ) (n E M : ℝ) : Prop :=
  ∃ K F, calcKG (calcK0 m pn).1 d pn = .ok K ∧ f.calcKG (f.calcK0 m pn).1 (f.calcK0 m pn).2.1 d pn = .ok F ∧ F.dim = K.dim ∧
    ∀ i ∈ m.nids, ∀ j ∈ m.nids, ∀ r < 5, ∀ s < 5, ∃ x, F.get (dofNo m i r) (dofNo m j s) = .fin x ∧
      |x - K.get (dofNo m i r) (dofNo m j s)| ≤ kGErr (contributionsKG m i j) n E M r s

/-- the same from displacements `d'` near `d`: `e` is the size of `d' - d` in the sense of `Loaded` -/
def KGNear (f : Fmt) (m : Mesh) (pn : Bool) (d d' : List ℝ) (n e E M : ℝ) : Prop :=
  ∃ K F, calcKG (calcK0 m pn).1 d pn = .ok K ∧ f.calcKG (f.calcK0 m pn).1 (f.calcK0 m pn).2.1 d' pn = .ok F ∧ F.dim = K.dim ∧
    ∀ i ∈ m.nids, ∀ j ∈ m.nids, ∀ r < 5, ∀ s < 5, ∃ x, F.get (dofNo m i r) (dofNo m j s) = .fin x ∧
      |x - K.get (dofNo m i r) (dofNo m j s)| ≤ kGErr (contributionsKG m i j) n E M r s + if r = 2 ∧ s = 2 then e * (4 * contributionsKG m i j * M) else 0

end Meshless.Spec
