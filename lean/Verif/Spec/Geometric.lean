import Verif.Spec.Plate

/-! Vocabulary for the geometric stiffness: membrane forces of a displacement state and the work they do on transverse slopes. -/

set_option autoImplicit false

namespace Meshless.Spec
open Finset

/-- membrane forces `(Nxx, Nyy, Nxy) = A (exx, eyy, gxy) + B (kxx, kyy, kxy)` of displacement `d` in an edge's domain -/
noncomputable def membrane (m : Mesh) (pn : Bool) (k : Key) (d : ℕ → ℝ) (i : Fin 3) : ℝ :=
  ∑ j : Fin 3, (avg m pn k (fun l => l.A i j) * eps m k d (Fin.castLE (by decide) j) + avg m pn k (fun l => l.B i j) * eps m k d (Fin.natAdd 3 j))

/-- `Σ_edges area * (grad w(v))^T [Nxx Nxy; Nxy Nyy] (grad w(u))` with the membrane forces of `d` -/
noncomputable def geometric (m : Mesh) (pn : Bool) (d v u : ℕ → ℝ) : ℝ :=
  (m.ekeys.map fun k =>
    let gx := fun z => gradX m (dom m k) (disp m z 2)
    let gy := fun z => gradY m (dom m k) (disp m z 2)
    |sarea m (dom m k)| * (gx v * membrane m pn k d 0 * gx u + gx v * membrane m pn k d 2 * gy u
      + gy v * membrane m pn k d 2 * gx u + gy v * membrane m pn k d 1 * gy u)).sum

/-- a list as a vector -/
def vec (d : List ℝ) : ℕ → ℝ := fun i => d.getD i 0

end Meshless.Spec
