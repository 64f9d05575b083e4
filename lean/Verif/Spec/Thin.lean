import Verif.Spec.Turn
import Verif.Spec.Buckling

/-! Vocabulary for plates of the same layup with another thickness. Only the data fields of `Mesh` are used. -/

set_option autoImplicit false

namespace Meshless.Spec

/-- `p'` is the laminate `p` with every ply thickness multiplied by `t`: `A` and `E` are proportional to the thickness, `B` to its square, `D` to its cube -/
structure ThinLam (t : ℝ) (p p' : Lam) : Prop where
  A : ∀ i j, p'.A i j = t * p.A i j
  B : ∀ i j, p'.B i j = t ^ 2 * p.B i j
  D : ∀ i j, p'.D i j = t ^ 3 * p.D i j
  E : ∀ i j, p'.E i j = t * p.E i j
  h : p'.h = t * p.h
  k13 : p'.k13 = p.k13
  k23 : p'.k23 = p.k23

/-- `m'` is the plate `m` with all thicknesses multiplied by `t`, its coordinates given in the basic system -/
structure ThinPlate (t : ℝ) (m m' : Mesh) : Prop extends LamRel (ThinLam t) id id m m' where
  nids : m'.nids = m.nids
  eids : m'.eids = m.eids
  tri : ∀ e ∈ m.eids, corners m' e = corners m e
  hx : ∀ i ∈ m.nids, nx m' i = nx m i
  hy : ∀ i ∈ m.nids, ny m' i = ny m i
  basic : ∀ i ∈ m'.nids, (m'.node i).cp (m'.node i).xyz = (m'.node i).xyz
  flat : ∀ i ∈ m'.nids, ∀ j ∈ m'.nids, (m'.node i).xyz.z = (m'.node j).xyz.z

/-- the displacements with the in-plane components `u`, `v` multiplied by `t`, as the thin plate stretches less than it bends -/
def thinned (t : ℝ) (z : ℕ → ℝ) : ℕ → ℝ := fun j => if j % 5 < 2 then t * z j else z j

/-- the loads that keep deflections of the same size in the plate theory without transverse shear: transverse forces and moments times `t^3`, in-plane forces
times `t^2` -/
def thinLoad (t : ℝ) (f : ℕ → ℝ) : ℕ → ℝ := fun j => if j % 5 < 2 then t ^ 2 * f j else t ^ 3 * f j

end Meshless.Spec
