import Verif.Spec.Units
import Verif.Model.Float

/-! Vocabulary for one mesh given twice: in other units of length (factor `s`) and force (factor `f`) and, with `ε = -1`, with the plate turned by
half a turn about the z axis. Only the data fields of `Mesh` are used; the meshes need not be planar. -/

set_option autoImplicit false

namespace Meshless.Spec

/-- floating-point rounding commutes with multiplication by `c`: true of powers of two (no overflow or underflow), and of `-1` when rounding to
nearest -/
def FlExact (R : Rounding) (c : ℝ) : Prop := ∀ x, R.fl (c * x) = c * R.fl x

/-- `w` is the vector `v` in the new units and axes -/
structure UnitVec (s ε : ℝ) (v w : Vec3) : Prop where
  x : w.x = ε * s * v.x
  y : w.y = ε * s * v.y
  z : w.z = s * v.z

/-- an integration point in the new units and axes -/
structure UnitPt (s ε : ℝ) (p q : IPt) : Prop where
  tria : q.tria = p.tria
  n1 : q.n1 = p.n1
  n2 : q.n2 = p.n2
  n3 : q.n3 = p.n3
  f1 : q.f1 = p.f1
  f2 : q.f2 = p.f2
  f3 : q.f3 = p.f3
  nx : q.nx = ε * p.nx
  ny : q.ny = ε * p.ny
  nz : q.nz = p.nz
  le : q.le = s * p.le
  xyz : UnitVec s ε p.xyz q.xyz

/-- an edge with its smoothing domain in the new units and axes -/
structure UnitEdge (s ε : ℝ) (a b : Edge) : Prop where
  n1 : b.n1 = a.n1
  n2 : b.n2 = a.n2
  trias : b.trias = a.trias
  other1 : b.other1 = a.other1
  other2 : b.other2 = a.other2
  Ac : Option.Rel (fun x y => y = s ^ 2 * x) a.Ac b.Ac
  sdomain : List.Forall₂ (UnitVec s ε) a.sdomain b.sdomain
  ipts : List.Forall₂ (UnitPt s ε) a.ipts b.ipts

/-- the mesh `m'` is the mesh `m` in the new units and axes, with everything stored on it so far -/
structure UnitMesh (s f ε : ℝ) (m m' : Mesh) : Prop where
  nids : m'.nids = m.nids
  eids : m'.eids = m.eids
  ekeys : m'.ekeys = m.ekeys
  xyz : ∀ i, UnitVec s ε (m.node i).xyz (m'.node i).xyz
  pos : ∀ i, UnitVec s ε ((m.node i).cp (m.node i).xyz) ((m'.node i).cp (m'.node i).xyz)
  index : ∀ i, (m'.node i).index = (m.node i).index
  nprop : ∀ i, Option.Rel (UnitLam s f) (m.node i).prop (m'.node i).prop
  n1 : ∀ e, (m'.tria e).n1 = (m.tria e).n1
  n2 : ∀ e, (m'.tria e).n2 = (m.tria e).n2
  n3 : ∀ e, (m'.tria e).n3 = (m.tria e).n3
  tedges : ∀ e, (m'.tria e).edges = (m.tria e).edges
  tprop : ∀ e, Option.Rel (UnitLam s f) (m.tria e).prop (m'.tria e).prop
  edge : ∀ k, UnitEdge s ε (m.edge k) (m'.edge k)

/-- unit of the generalised force of a degree of freedom, relative to the unit of force: 1 for forces, the length for moments; with the sign of the
half turn, which keeps only the deflection -/
noncomputable def dofUnit (s ε : ℝ) (i : ℕ) : ℝ := if i % 5 < 2 then ε else if i % 5 = 2 then 1 else ε * s

/-- `K'` is the matrix `K` in the new units and axes -/
def UnitMat (s f ε : ℝ) (K K' : Mat) : Prop :=
  K'.dim = K.dim ∧ ∀ i j, K'.get i j = f / s * (dofUnit s ε i * dofUnit s ε j) * K.get i j

/-- `d'` is the displacement vector `d` in the new units and axes: displacements are lengths, rotations pure numbers -/
def UnitDisp (s ε : ℝ) (d d' : List ℝ) : Prop :=
  d'.length = d.length ∧ ∀ i, d'.getD i 0 = s / dofUnit s ε i * d.getD i 0

end Meshless.Spec
