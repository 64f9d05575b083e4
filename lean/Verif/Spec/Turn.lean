import Verif.Spec.Plate

/-! Vocabulary for the same plate described in turned axes. Only the data fields of `Mesh` are used. -/

set_option autoImplicit false

namespace Meshless.Spec
open Finset

/-- the plane map `(x, y) -> (q 0 0 * x + q 0 1 * y, q 1 0 * x + q 1 1 * y)` keeps lengths and right angles: a rotation, or a
reflection -/
structure Orthogonal (q : Fin 2 → Fin 2 → ℝ) : Prop where
  row0 : q 0 0 ^ 2 + q 0 1 ^ 2 = 1
  row1 : q 1 0 ^ 2 + q 1 1 ^ 2 = 1
  cross : q 0 0 * q 1 0 + q 0 1 * q 1 1 = 0

/-- rotation by the angle `t`, counter-clockwise for positive `t`, given by `c = cos t`, `s = sin t` -/
def rotation (c s : ℝ) : Fin 2 → Fin 2 → ℝ := ![![c, -s], ![s, c]]

/-- reflection of the second coordinate -/
def mirror : Fin 2 → Fin 2 → ℝ := ![![1, 0], ![0, -1]]

/-- Strains and curvatures `(exx, eyy, gxy, kxx, kyy, kxy)` seen in turned axes: the tensors `[exx gxy/2; gxy/2 eyy]` and
`[kxx kxy/2; kxy/2 kyy]` become `q T q^T`. -/
def turnStrain (q : Fin 2 → Fin 2 → ℝ) (e : Fin 6 → ℝ) : Fin 6 → ℝ := ![
  q 0 0 ^ 2 * e 0 + q 0 1 ^ 2 * e 1 + q 0 0 * q 0 1 * e 2,
  q 1 0 ^ 2 * e 0 + q 1 1 ^ 2 * e 1 + q 1 0 * q 1 1 * e 2,
  2 * (q 0 0 * q 1 0) * e 0 + 2 * (q 0 1 * q 1 1) * e 1 + (q 0 0 * q 1 1 + q 0 1 * q 1 0) * e 2,
  q 0 0 ^ 2 * e 3 + q 0 1 ^ 2 * e 4 + q 0 0 * q 0 1 * e 5,
  q 1 0 ^ 2 * e 3 + q 1 1 ^ 2 * e 4 + q 1 0 * q 1 1 * e 5,
  2 * (q 0 0 * q 1 0) * e 3 + 2 * (q 0 1 * q 1 1) * e 4 + (q 0 0 * q 1 1 + q 0 1 * q 1 0) * e 5]

/-- `x^T [A B; B D] y` -/
def lamProd (p : Lam) (x y : Fin 6 → ℝ) : ℝ := ∑ i, ∑ j, x i * abd p i j * y j

/-- `p'` is the laminate `p` in turned axes: it stores the same energy in the turned strains -/
def TurnedLam (q : Fin 2 → Fin 2 → ℝ) (p p' : Lam) : Prop := ∀ e, lamProd p' (turnStrain q e) (turnStrain q e) = lamProd p e e

/-- `m'` has the triangles of `m` in turned and shifted axes, with node `i` called `π i`, triangle `e` called `σ e`, everything listed
in any order -/
structure TurnedGeom (q : Fin 2 → Fin 2 → ℝ) (π σ : ℕ → ℕ) (a b : ℝ) (m m' : Mesh) : Prop where
  nids : m'.nids.Perm (m.nids.map π)
  eids : m'.eids.Perm (m.eids.map σ)
  tri : ∀ e ∈ m.eids, (corners m' (σ e)).Perm ((corners m e).map π)
  hx : ∀ i ∈ m.nids, nx m' (π i) = q 0 0 * nx m i + q 0 1 * ny m i + a
  hy : ∀ i ∈ m.nids, ny m' (π i) = q 1 0 * nx m i + q 1 1 * ny m i + b

/-- the laminates assigned to corresponding nodes and triangles of two meshes are related by `R` -/
structure LamRel (R : Lam → Lam → Prop) (π σ : ℕ → ℕ) (m m' : Mesh) : Prop where
  tprop : ∀ e ∈ m.eids, Option.Rel R (m.tria e).prop (m'.tria (σ e)).prop
  nprop : ∀ i ∈ m.nids, Option.Rel R (m.node i).prop (m'.node (π i)).prop

/-- `m'` is the plate `m` in turned and shifted axes, the laminates included -/
structure TurnedPlate (q : Fin 2 → Fin 2 → ℝ) (π σ : ℕ → ℕ) (a b : ℝ) (m m' : Mesh) : Prop extends
  TurnedGeom q π σ a b m m', LamRel (TurnedLam q) π σ m m'

/-- the nodal values of `z'` on `m'` are those of `z` on `m` in turned axes: `(u, v)` and `(phix, phiy)` turn, `w` does not -/
structure TurnedDisp (q : Fin 2 → Fin 2 → ℝ) (π : ℕ → ℕ) (m m' : Mesh) (z z' : ℕ → ℝ) : Prop where
  u : ∀ i ∈ m.nids, disp m' z' 0 (π i) = q 0 0 * disp m z 0 i + q 0 1 * disp m z 1 i
  v : ∀ i ∈ m.nids, disp m' z' 1 (π i) = q 1 0 * disp m z 0 i + q 1 1 * disp m z 1 i
  w : ∀ i ∈ m.nids, disp m' z' 2 (π i) = disp m z 2 i
  phix : ∀ i ∈ m.nids, disp m' z' 3 (π i) = q 0 0 * disp m z 3 i + q 0 1 * disp m z 4 i
  phiy : ∀ i ∈ m.nids, disp m' z' 4 (π i) = q 1 0 * disp m z 3 i + q 1 1 * disp m z 4 i

/-- one laminate block `[M11 M12 0; M12 M11 0; 0 0 (M11 - M12)/2]` (upper triangle) -/
def IsoBlock (M : Fin 3 → Fin 3 → ℝ) : Prop := M 1 1 = M 0 0 ∧ M 0 2 = 0 ∧ M 1 2 = 0 ∧ M 2 2 = (M 0 0 - M 0 1) / 2

/-- one laminate block without coupling of direct and shear components -/
def OrthoBlock (M : Fin 3 → Fin 3 → ℝ) : Prop := M 0 2 = 0 ∧ M 1 2 = 0

/-- in-plane isotropic laminate -/
def Isotropic (p : Lam) : Prop := IsoBlock p.A ∧ IsoBlock p.B ∧ IsoBlock p.D

/-- laminate with the coordinate axes as axes of symmetry -/
def Orthotropic (p : Lam) : Prop := OrthoBlock p.A ∧ OrthoBlock p.B ∧ OrthoBlock p.D

/-- the stored matrices `A` and `B` are symmetric -/
def SymmetricAB (p : Lam) : Prop := (∀ i j, p.A i j = p.A j i) ∧ ∀ i j, p.B i j = p.B j i

/-- every laminate assigned to a node or triangle of the mesh satisfies `P` -/
def AllLams (m : Mesh) (P : Lam → Prop) : Prop := (∀ i ∈ m.nids, ∀ p, (m.node i).prop = some p → P p) ∧ ∀ e ∈ m.eids, ∀ p, (m.tria e).prop = some p → P p

/-- same thickness, shear moduli and correction factors -/
def SameShear (p p' : Lam) : Prop := p'.h = p.h ∧ p'.k13 = p.k13 ∧ p'.k23 = p.k23 ∧ p'.E 0 0 = p.E 0 0 ∧ p'.E 1 1 = p.E 1 1

/-- the two transverse shear moduli are equal, and so are the correction factors -/
def ShearIsotropic (p : Lam) : Prop := p.k13 = p.k23 ∧ p.E 0 0 = p.E 1 1

end Meshless.Spec
