import Verif.Spec.Shear
import Verif.Spec.Buckling

/-! The standard finite element to compare with: constant strain triangles (linear interpolation in each triangle). -/

set_option autoImplicit false

namespace Meshless.Spec
open Finset

/-- strains and curvatures `(exx, eyy, gxy, kxx, kyy, kxy)` of the linear interpolation in triangle `e` -/
noncomputable def triEps (m : Mesh) (e : ℕ) (v : ℕ → ℝ) : Fin 6 → ℝ := ![
  gradX m (tpoly m e) (disp m v 0),
  gradY m (tpoly m e) (disp m v 1),
  gradY m (tpoly m e) (disp m v 0) + gradX m (tpoly m e) (disp m v 1),
  gradX m (tpoly m e) (disp m v 3),
  gradY m (tpoly m e) (disp m v 4),
  gradY m (tpoly m e) (disp m v 3) + gradX m (tpoly m e) (disp m v 4)]

/-- membrane-bending energy product of the constant strain triangles, triangle `e` having laminate `l e` -/
noncomputable def cstEnergy (m : Mesh) (l : ℕ → Lam) (v u : ℕ → ℝ) : ℝ :=
  (m.eids.map fun e => triArea m e * ∑ p, ∑ q, triEps m e v p * abd (l e) p q * triEps m e u q).sum

/-- energy of the difference of the strains of the two triangles at an interior edge, weighted by their areas; zero at the boundary -/
noncomputable def jumpEnergy (m : Mesh) (l : Lam) (k : Key) (v : ℕ → ℝ) : ℝ :=
  match (m.edge k).trias with
  | [t1, t2] => triArea m t1 * triArea m t2 / (3 * (triArea m t1 + triArea m t2)) *
      ∑ p, ∑ q, (triEps m t1 v p - triEps m t2 v p) * abd l p q * (triEps m t1 v q - triEps m t2 v q)
  | _ => 0

/-- the stiffness matrix of the constant strain triangles -/
noncomputable def cstMat (m : Mesh) (l : ℕ → Lam) : Mat :=
  ⟨5 * m.nids.length, fun i j => cstEnergy m l (fun a => if a = i then 1 else 0) (fun a => if a = j then 1 else 0)⟩

/-- `K` with the part `K0` replaced by the stiffness of the constant strain triangles -/
noncomputable def withCst (m : Mesh) (l : ℕ → Lam) (K0 K : Mat) : Mat := ⟨K.dim, fun i j => (cstMat m l).get i j + (K.get i j - K0.get i j)⟩

end Meshless.Spec
