import Verif.Spec.Consist
import Verif.Spec.Stable
import Verif.Spec.Modes

/-! Vocabulary for convergence of static solutions: linear interpolation of nodal values, virtual work of the forces of a displacement field, loads in
balance with a field. -/

set_option autoImplicit false

namespace Meshless.Spec
open Finset MeasureTheory

/-- value at `x` of the linear function that has the nodal values `f` at the corners of triangle `e` -/
noncomputable def lin (m : Mesh) (e : ℕ) (f : ℕ → ℝ) (x : ℝ × ℝ) : ℝ :=
  f (m.tria e).n1 + gradX m (tpoly m e) f * (x.1 - nx m (m.tria e).n1) + gradY m (tpoly m e) f * (x.2 - ny m (m.tria e).n1)

/-- transverse shear strains at `x` of the linear interpolation in triangle `e` -/
noncomputable def linShear (m : Mesh) (e : ℕ) (v : ℕ → ℝ) (x : ℝ × ℝ) : Fin 2 → ℝ := ![
  gradX m (tpoly m e) (disp m v 2) + lin m e (disp m v 3) x,
  gradY m (tpoly m e) (disp m v 2) + lin m e (disp m v 4) x]

/-- work of the forces and moments of the field `F` on the strains of the linear interpolation of the nodal displacements `v` -/
noncomputable def virtualWork (m : Mesh) (l : ℝ × ℝ → Lam) (F Fx Fy : ℕ → ℝ × ℝ → ℝ) (v : ℕ → ℝ) : ℝ :=
  (m.eids.map fun e => ∫ x in hull m e, (∑ p, ∑ q, strain Fx Fy x p * abd (l x) p q * triEps m e v q +
    ∑ r, shear F Fx Fy x r * shearStiff (l x) r * linShear m e v x r)).sum

/-- The nodal loads `f` are in balance with the field `F`: their work on every displacement compatible with the supports is that of the forces of the field.
By integration by parts these are the consistent nodal loads of the distributed loads and edge loads that belong to `F`. -/
def Balanced (m : Mesh) (l : ℝ × ℝ → Lam) (F Fx Fy : ℕ → ℝ × ℝ → ℝ) (S : Set ℕ) (f : ℕ → ℝ) : Prop :=
  ∀ v, (∀ i < 5 * m.nids.length, i ∈ S → v i = 0) → ∑ i ∈ range (5 * m.nids.length), f i * v i = virtualWork m l F Fx Fy v

/-- derivatives of the linearly interpolated rotations -/
noncomputable def rotGrad (m : Mesh) (e : ℕ) (v : ℕ → ℝ) : Fin 4 → ℝ := ![
  gradX m (tpoly m e) (disp m v 3), gradY m (tpoly m e) (disp m v 3), gradX m (tpoly m e) (disp m v 4), gradY m (tpoly m e) (disp m v 4)]

/-- squared size of the rotations and their derivatives -/
noncomputable def rotSize (m : Mesh) (v : ℕ → ℝ) : ℝ := (m.eids.map fun e => triArea m e * (∑ j, rotGrad m e v j ^ 2 + ∑ r, rotSum m e v r ^ 2)).sum

/-- the supports control the rotations: their size is at most `k` times that of the strains and curvatures -/
def RotHeld (m : Mesh) (S : Set ℕ) (k : ℝ) : Prop := ∀ v, (∀ i < 5 * m.nids.length, i ∈ S → v i = 0) → rotSize m v ≤ k * strainSize m v

/-- both rotations are fixed at the ends of all boundary edges -/
def RotClamped (m : Mesh) (S : Set ℕ) : Prop :=
  ∀ k ∈ m.ekeys, (m.edge k).trias.length = 1 → ∀ i, i = k.1 ∨ i = k.2 → 5 * m.nids.idxOf i + 3 ∈ S ∧ 5 * m.nids.idxOf i + 4 ∈ S

/-- all degrees of freedom are fixed at the ends of all boundary edges -/
def Clamped (m : Mesh) (S : Set ℕ) : Prop := ∀ k ∈ m.ekeys, (m.edge k).trias.length = 1 → ∀ i, i = k.1 ∨ i = k.2 → ∀ r < 5, 5 * m.nids.idxOf i + r ∈ S

/-- squared displacements at the corners of the triangles, weighted with the areas -/
noncomputable def dispSize (m : Mesh) (v : ℕ → ℝ) : ℝ :=
  (m.eids.map fun e => triArea m e * ∑ r ∈ range 5, (disp m v r (m.tria e).n1 ^ 2 + disp m v r (m.tria e).n2 ^ 2 + disp m v r (m.tria e).n3 ^ 2)).sum

/-- squared error of the strains and curvatures of the linear interpolation of `d`, integrated over the plate -/
noncomputable def strainErr (m : Mesh) (Fx Fy : ℕ → ℝ × ℝ → ℝ) (d : ℕ → ℝ) : ℝ := (m.eids.map fun e => ∫ x in hull m e, ∑ p, (triEps m e d p - strain Fx Fy x p) ^ 2).sum

/-- the plate lies in a strip of half width `R` along `y` -/
def Within (m : Mesh) (R : ℝ) : Prop := ∃ x0, ∀ e ∈ m.eids, ∀ i, IsCorner m e i → |nx m i - x0| ≤ R

/-- transverse shear data of a laminate are at least `g` -/
def ShearAtLeast (g : ℝ) (l : Lam) : Prop := g ≤ l.k13 ∧ g ≤ l.k23 ∧ g ≤ l.E 0 0 ∧ g ≤ l.E 1 1

/-- a smooth plate meshed with triangles of shape `s`: laminates `l` with data bounded by `L0` and Lipschitz with `L1`, membrane and bending stiffness at
least `c`, shear data at least `g`, thickness at least `tau` -/
structure SmoothPlate (m : Mesh) (pn : Bool) (l : ℝ × ℝ → Lam) (s L0 L1 c g tau : ℝ) : Prop where
  good : GoodPlate m pn
  shape : Shape m s
  lam : SmoothLam m (fun _ => l) L0 L1
  assigned : Assigned m pn fun _ => l
  stiff : ∀ l', InUse m pn l' → AtLeast c l'
  shear : ∀ l', InUse m pn l' → ShearAtLeast g l'
  thick : ThickAtLeast m (fun _ => l) tau

end Meshless.Spec
