import Verif.Spec.Buckling
import Verif.Spec.Equilibrium

/-! The buckling equations of the plate theory. -/

set_option autoImplicit false

namespace Meshless.Spec
open Finset MeasureTheory

/-- transverse component of the membrane forces of the state `D` on the deflected plate, on a section normal to `x`: `Nxx w,x + Nxy w,y` -/
noncomputable def preX (l : ℝ × ℝ → Lam) (Dx Dy Fx Fy : ℕ → ℝ × ℝ → ℝ) (x : ℝ × ℝ) : ℝ := contMembrane (l x) Dx Dy x 0 * Fx 2 x + contMembrane (l x) Dx Dy x 2 * Fy 2 x

/-- the same on a section normal to `y`: `Nxy w,x + Nyy w,y` -/
noncomputable def preY (l : ℝ × ℝ → Lam) (Dx Dy Fx Fy : ℕ → ℝ × ℝ → ℝ) (x : ℝ × ℝ) : ℝ := contMembrane (l x) Dx Dy x 2 * Fx 2 x + contMembrane (l x) Dx Dy x 1 * Fy 2 x

/-- work of these forces on the slopes of the linear interpolation of the nodal displacements `v` -/
noncomputable def preWork (m : Mesh) (l : ℝ × ℝ → Lam) (Dx Dy Fx Fy : ℕ → ℝ × ℝ → ℝ) (v : ℕ → ℝ) : ℝ :=
  (m.eids.map fun e => ∫ x in hull m e, (preX l Dx Dy Fx Fy x * gradX m (tpoly m e) (disp m v 2) + preY l Dx Dy Fx Fy x * gradY m (tpoly m e) (disp m v 2))).sum

/-- `F` solves the buckling equations of the plate `Om` with the membrane forces of `lam` times the state `D`: equilibrium without loads except the
transverse force `lam ((Nxx w,x + Nxy w,y),x + (Nxy w,x + Nyy w,y),y)`. -/
def BucklingField (Om : Set (ℝ × ℝ)) (l : ℝ × ℝ → Lam) (Dx Dy F Fx Fy : ℕ → ℝ × ℝ → ℝ) (lam : ℝ) : Prop := ∃ (Xx Xy Yx Yy : ℕ → ℝ × ℝ → ℝ) (Px Py Rx Ry : ℝ × ℝ → ℝ),
  (∀ x ∈ Om, HasFDerivWithinAt (preX l Dx Dy Fx Fy) (Px x • ContinuousLinearMap.fst ℝ ℝ ℝ + Py x • ContinuousLinearMap.snd ℝ ℝ ℝ) Om x) ∧
  (∀ x ∈ Om, HasFDerivWithinAt (preY l Dx Dy Fx Fy) (Rx x • ContinuousLinearMap.fst ℝ ℝ ℝ + Ry x • ContinuousLinearMap.snd ℝ ℝ ℝ) Om x) ∧
  (ContinuousOn Px Om ∧ ContinuousOn Py Om ∧ ContinuousOn Rx Om ∧ ContinuousOn Ry Om) ∧
  Equilibrium Om l F Fx Fy Xx Xy Yx Yy fun r x => if r = 2 then lam * (Px x + Ry x) else 0

/-- On every boundary edge the forces and moments of `F`, with the transverse component of the membrane forces, vanish in the directions that are not fixed at
both ends of the edge. -/
def FreeRim (m : Mesh) (l : ℝ × ℝ → Lam) (Dx Dy F Fx Fy : ℕ → ℝ × ℝ → ℝ) (lam : ℝ) (S : Set ℕ) : Prop :=
  ∀ k ∈ m.ekeys, ∀ e, (m.edge k).trias = [e] → ∀ nu, OutNormal m e k nu → ∀ r < 5,
    (5 * m.nids.idxOf k.1 + r ∈ S ∧ 5 * m.nids.idxOf k.2 + r ∈ S) ∨
    ∀ t ∈ Set.Ioo (0:ℝ) 1, nu.1 * (forceX l F Fx Fy r (sidePt m k t) + if r = 2 then lam * preX l Dx Dy Fx Fy (sidePt m k t) else 0) +
      nu.2 * (forceY l F Fx Fy r (sidePt m k t) + if r = 2 then lam * preY l Dx Dy Fx Fy (sidePt m k t) else 0) = 0

/-- principle of virtual work at the buckling load, for the displacements of the mesh that are compatible with the supports -/
def WeakMode (m : Mesh) (l : ℝ × ℝ → Lam) (Dx Dy F Fx Fy : ℕ → ℝ × ℝ → ℝ) (lam : ℝ) (S : Set ℕ) : Prop :=
  ∀ v, (∀ i < 5 * m.nids.length, i ∈ S → v i = 0) → virtualWork m l F Fx Fy v + lam * preWork m l Dx Dy Fx Fy v = 0

end Meshless.Spec
