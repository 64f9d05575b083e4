import Verif.Spec.Turn
import Verif.Spec.Buckling

/-! Vocabulary for the same plate in other units of length and force. Only the data fields of `Mesh` are used. -/

set_option autoImplicit false

namespace Meshless.Spec

/-- `p'` is the laminate `p` when lengths are multiplied by `a` and forces by `f`: `A` and `E` are forces per length, `B` forces, `D` forces times
length; the correction factors are pure numbers -/
structure UnitLam (a f : ℝ) (p p' : Lam) : Prop where
  A : ∀ i j, p'.A i j = f / a * p.A i j
  B : ∀ i j, p'.B i j = f * p.B i j
  D : ∀ i j, p'.D i j = f * a * p.D i j
  E : ∀ i j, p'.E i j = f / a * p.E i j
  h : p'.h = a * p.h
  k13 : p'.k13 = p.k13
  k23 : p'.k23 = p.k23

/-- `m'` is the plate `m` with lengths multiplied by `a` and forces by `f`, its coordinates given in the basic system -/
structure UnitPlate (a f : ℝ) (m m' : Mesh) : Prop extends LamRel (UnitLam a f) id id m m' where
  nids : m'.nids = m.nids
  eids : m'.eids = m.eids
  tri : ∀ e ∈ m.eids, corners m' e = corners m e
  hx : ∀ i ∈ m.nids, nx m' i = a * nx m i
  hy : ∀ i ∈ m.nids, ny m' i = a * ny m i
  basic : ∀ i ∈ m'.nids, (m'.node i).cp (m'.node i).xyz = (m'.node i).xyz
  flat : ∀ i ∈ m'.nids, ∀ j ∈ m'.nids, (m'.node i).xyz.z = (m'.node j).xyz.z

/-- the vector with the three displacement components of each node multiplied by `s` and the two rotation components by `t` -/
def scaled (s t : ℝ) (z : ℕ → ℝ) : ℕ → ℝ := fun j => if j % 5 < 3 then s * z j else t * z j

/-- displacements in the new unit of length: the rotations are pure numbers -/
def inLength (a : ℝ) (z : ℕ → ℝ) : ℕ → ℝ := scaled a 1 z

/-- loads in the new units: forces and moments -/
def inLoad (a f : ℝ) (z : ℕ → ℝ) : ℕ → ℝ := scaled f (f * a) z

end Meshless.Spec
