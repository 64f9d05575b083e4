import Verif.Spec.Shear
import Mathlib.Analysis.Calculus.FDeriv.Basic
import Mathlib.MeasureTheory.Measure.Lebesgue.Basic
import Mathlib.MeasureTheory.Integral.Bochner.Set
import Mathlib.Topology.Algebra.Order.LiminfLimsup

/-! Vocabulary for consistency: the plate as a continuum. Displacement fields on the plane with derivatives, laminates varying over the plate, energies
as integrals over the triangles. -/

set_option autoImplicit false

namespace Meshless.Spec
open Finset MeasureTheory

/-- the place of a node in the plane -/
def pt (m : Mesh) (i : ℕ) : ℝ × ℝ := (nx m i, ny m i)

/-- the closed triangle of an element -/
def hull (m : Mesh) (e : ℕ) : Set (ℝ × ℝ) := convexHull ℝ {pt m (m.tria e).n1, pt m (m.tria e).n2, pt m (m.tria e).n3}

/-- Displacement fields `F 0 = u`, `F 1 = v`, `F 2 = w`, `F 3 = phix`, `F 4 = phiy` with derivatives `Fx`, `Fy` on every triangle; `S` bounds fields and
derivatives, the derivatives have Lipschitz constant `M` (distances measured as the larger of the two coordinate differences). -/
structure SmoothField (m : Mesh) (F Fx Fy : ℕ → ℝ × ℝ → ℝ) (S M : ℝ) : Prop where
  deriv : ∀ e ∈ m.eids, ∀ r < 5, ∀ x ∈ hull m e,
    HasFDerivWithinAt (F r) (Fx r x • ContinuousLinearMap.fst ℝ ℝ ℝ + Fy r x • ContinuousLinearMap.snd ℝ ℝ ℝ) (hull m e) x
  bound : ∀ e ∈ m.eids, ∀ r < 5, ∀ x ∈ hull m e, |F r x| ≤ S ∧ |Fx r x| ≤ S ∧ |Fy r x| ≤ S
  lip : ∀ e ∈ m.eids, ∀ r < 5, ∀ x ∈ hull m e, ∀ y ∈ hull m e, |Fx r x - Fx r y| ≤ M * dist x y ∧ |Fy r x - Fy r y| ≤ M * dist x y

/-- the vector of the nodal values of the fields -/
def Nodal (m : Mesh) (F : ℕ → ℝ × ℝ → ℝ) (v : ℕ → ℝ) : Prop := ∀ i ∈ m.nids, ∀ r < 5, disp m v r i = F r (pt m i)

/-- membrane strains and curvatures `(exx, eyy, gxy, kxx, kyy, kxy)` at a point -/
def strain (Fx Fy : ℕ → ℝ × ℝ → ℝ) (x : ℝ × ℝ) : Fin 6 → ℝ := ![Fx 0 x, Fy 1 x, Fy 0 x + Fx 1 x, Fx 3 x, Fy 4 x, Fy 3 x + Fx 4 x]

/-- transverse shear strains `(gamma_xz, gamma_yz)` at a point -/
def shear (F Fx Fy : ℕ → ℝ × ℝ → ℝ) (x : ℝ × ℝ) : Fin 2 → ℝ := ![Fx 2 x + F 3 x, Fy 2 x + F 4 x]

/-- the laminate quantities the energies are made of -/
def lamData : List (Lam → ℝ) :=
  (List.finRange 6).flatMap (fun p => (List.finRange 6).map fun q l => abd l p q)
    ++ (List.finRange 3).flatMap (fun i => (List.finRange 3).flatMap fun j => [fun l => l.A i j, fun l => l.B i j])
    ++ [fun l => l.k23, fun l => l.k13, fun l => l.E 0 0, fun l => l.E 1 1]

/-- A laminate `l e x` at every place `x` of every triangle `e`, its data bounded by `Lam0` and with Lipschitz constant `Lam1` in each triangle. -/
structure SmoothLam (m : Mesh) (l : ℕ → ℝ × ℝ → Lam) (Lam0 Lam1 : ℝ) : Prop where
  bound : ∀ e ∈ m.eids, ∀ x ∈ hull m e, ∀ s ∈ lamData, |s (l e x)| ≤ Lam0
  lip : ∀ e ∈ m.eids, ∀ x ∈ hull m e, ∀ y ∈ hull m e, ∀ s ∈ lamData, |s (l e x) - s (l e y)| ≤ Lam1 * dist x y

/-- The properties of the mesh are those of the laminates `l`: at the corners for properties from nodes; otherwise
every triangle has the laminate at one of its points. -/
def Assigned (m : Mesh) (pn : Bool) (l : ℕ → ℝ × ℝ → Lam) : Prop :=
  if pn then ∀ e ∈ m.eids, ∀ i, IsCorner m e i → (m.node i).prop = some (l e (pt m i)) else ∀ e ∈ m.eids, ∃ x ∈ hull m e, (m.tria e).prop = some (l e x)

/-- no side is longer than `h` -/
def Size (m : Mesh) (h : ℝ) : Prop := ∀ e ∈ m.eids, charLen m false e ≤ h

/-- no triangle is flatter than `s` says: the square of its longest side is at most `s` times its area -/
def Shape (m : Mesh) (s : ℝ) : Prop := ∀ e ∈ m.eids, charLen m false e ^ 2 ≤ s * triArea m e

/-- area of the plate -/
noncomputable def totalArea (m : Mesh) : ℝ := (m.eids.map (triArea m)).sum

/-- membrane and bending energy product of two fields over the plate: `∫ eps(F)^T [A B; B D] eps(G)` -/
noncomputable def contEnergy (m : Mesh) (l : ℕ → ℝ × ℝ → Lam) (Fx Fy Gx Gy : ℕ → ℝ × ℝ → ℝ) : ℝ :=
  (m.eids.map fun e => ∫ x in hull m e, ∑ p, ∑ q, strain Fx Fy x p * abd (l e x) p q * strain Gx Gy x q).sum

/-- transverse shear stiffness of a laminate belonging to component `r` of the shear strain: `k23 * E[0,0]`, `k13 * E[1,1]` -/
def shearStiff (l : Lam) (r : Fin 2) : ℝ := if r = 0 then l.k23 * l.E 0 0 else l.k13 * l.E 1 1

/-- transverse shear energy product of two fields over the plate -/
noncomputable def contShear (m : Mesh) (l : ℕ → ℝ × ℝ → Lam) (F Fx Fy G Gx Gy : ℕ → ℝ × ℝ → ℝ) : ℝ :=
  (m.eids.map fun e => ∫ x in hull m e, ∑ r, shear F Fx Fy x r * shearStiff (l e x) r * shear G Gx Gy x r).sum

/-- the plate is at least `tau` thick -/
def ThickAtLeast (m : Mesh) (l : ℕ → ℝ × ℝ → Lam) (tau : ℝ) : Prop := ∀ e ∈ m.eids, ∀ x ∈ hull m e, tau ≤ (l e x).h

/-- membrane forces `(Nxx, Nyy, Nxy) = A (exx, eyy, gxy) + B (kxx, kyy, kxy)` of a field at a point -/
noncomputable def contMembrane (l : Lam) (Dx Dy : ℕ → ℝ × ℝ → ℝ) (x : ℝ × ℝ) (i : Fin 3) : ℝ :=
  ∑ j : Fin 3, (l.A i j * strain Dx Dy x (Fin.castLE (by decide) j) + l.B i j * strain Dx Dy x (Fin.natAdd 3 j))

/-- `∫ (grad w(F))^T [Nxx Nxy; Nxy Nyy] (grad w(G))` over the plate with the membrane forces of a field `D` -/
noncomputable def contGeometric (m : Mesh) (l : ℕ → ℝ × ℝ → Lam) (Dx Dy Fx Fy Gx Gy : ℕ → ℝ × ℝ → ℝ) : ℝ :=
  (m.eids.map fun e => ∫ x in hull m e, (Fx 2 x * contMembrane (l e x) Dx Dy x 0 * Gx 2 x + Fx 2 x * contMembrane (l e x) Dx Dy x 2 * Gy 2 x
    + Fy 2 x * contMembrane (l e x) Dx Dy x 2 * Gx 2 x + Fy 2 x * contMembrane (l e x) Dx Dy x 1 * Gy 2 x)).sum

/-! ### a plate and its meshes -/

/-- displacement fields with derivatives on the plate `Om`; `S` bounds fields and derivatives, the derivatives have Lipschitz constant `M` -/
structure FieldOn (Om : Set (ℝ × ℝ)) (F Fx Fy : ℕ → ℝ × ℝ → ℝ) (S M : ℝ) : Prop where
  deriv : ∀ r < 5, ∀ x ∈ Om, HasFDerivWithinAt (F r) (Fx r x • ContinuousLinearMap.fst ℝ ℝ ℝ + Fy r x • ContinuousLinearMap.snd ℝ ℝ ℝ) Om x
  bound : ∀ r < 5, ∀ x ∈ Om, |F r x| ≤ S ∧ |Fx r x| ≤ S ∧ |Fy r x| ≤ S
  lip : ∀ r < 5, ∀ x ∈ Om, ∀ y ∈ Om, |Fx r x - Fx r y| ≤ M * dist x y ∧ |Fy r x - Fy r y| ≤ M * dist x y

/-- laminates on the plate, their data bounded by `Lam0` and with Lipschitz constant `Lam1` -/
structure LamOn (Om : Set (ℝ × ℝ)) (l : ℝ × ℝ → Lam) (Lam0 Lam1 : ℝ) : Prop where
  bound : ∀ x ∈ Om, ∀ s ∈ lamData, |s (l x)| ≤ Lam0
  lip : ∀ x ∈ Om, ∀ y ∈ Om, ∀ s ∈ lamData, |s (l x) - s (l y)| ≤ Lam1 * dist x y

/-- the triangles fill the plate `Om` without overlap: they cover it and nothing else, and their areas add up to its area -/
structure Tiles (m : Mesh) (Om : Set (ℝ × ℝ)) : Prop where
  cover : ∀ x, x ∈ Om ↔ ∃ e ∈ m.eids, x ∈ hull m e
  area : totalArea m = volume.real Om

/-- Meshes `m 0, m 1, ...` of the same plate, their longest sides tending to `0`, their triangles not becoming flat, their properties those of the
laminates `l`. -/
structure Refined (Om : Set (ℝ × ℝ)) (l : ℝ × ℝ → Lam) (pn : Bool) (s : ℝ) (m : ℕ → Mesh) : Prop where
  proper : ∀ n, Proper (m n)
  planar : ∀ n, Planar (m n)
  tiles : ∀ n, Tiles (m n) Om
  shape : ∀ n, Shape (m n) s
  size : ∃ h : ℕ → ℝ, (∀ n, Size (m n) (h n)) ∧ Filter.Tendsto h Filter.atTop (nhds 0)
  lam : ∀ n, Assigned (m n) pn fun _ => l

/-- membrane and bending energy product of two fields on the plate -/
noncomputable def plateEnergy (Om : Set (ℝ × ℝ)) (l : ℝ × ℝ → Lam) (Fx Fy Gx Gy : ℕ → ℝ × ℝ → ℝ) : ℝ :=
  ∫ x in Om, ∑ p, ∑ q, strain Fx Fy x p * abd (l x) p q * strain Gx Gy x q

/-- transverse shear energy product of two fields on the plate -/
noncomputable def plateShear (Om : Set (ℝ × ℝ)) (l : ℝ × ℝ → Lam) (F Fx Fy G Gx Gy : ℕ → ℝ × ℝ → ℝ) : ℝ :=
  ∫ x in Om, ∑ r, shear F Fx Fy x r * shearStiff (l x) r * shear G Gx Gy x r

/-- work of the membrane forces of the field `D` on the slopes of two fields -/
noncomputable def plateGeometric (Om : Set (ℝ × ℝ)) (l : ℝ × ℝ → Lam) (Dx Dy Fx Fy Gx Gy : ℕ → ℝ × ℝ → ℝ) : ℝ :=
  ∫ x in Om, (Fx 2 x * contMembrane (l x) Dx Dy x 0 * Gx 2 x + Fx 2 x * contMembrane (l x) Dx Dy x 2 * Gy 2 x
    + Fy 2 x * contMembrane (l x) Dx Dy x 2 * Gx 2 x + Fy 2 x * contMembrane (l x) Dx Dy x 1 * Gy 2 x)

end Meshless.Spec
