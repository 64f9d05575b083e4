import Verif.Spec.Converge
import Mathlib.MeasureTheory.Integral.IntervalIntegral.Basic

/-! The equations of equilibrium of a plate, and the nodal loads of distributed loads and edge loads. -/

set_option autoImplicit false

namespace Meshless.Spec
open Finset MeasureTheory

/-- membrane forces and moments `(Nxx, Nyy, Nxy, Mxx, Myy, Mxy)` of the field -/
noncomputable def resultant (l : ℝ × ℝ → Lam) (Fx Fy : ℕ → ℝ × ℝ → ℝ) (x : ℝ × ℝ) (p : Fin 6) : ℝ := ∑ q, abd (l x) p q * strain Fx Fy x q

/-- transverse shear forces `(Qx, Qy)` of the field -/
noncomputable def shearForce (l : ℝ × ℝ → Lam) (F Fx Fy : ℕ → ℝ × ℝ → ℝ) (x : ℝ × ℝ) (r : Fin 2) : ℝ := shearStiff (l x) r * shear F Fx Fy x r

/-- forces and moments on a section normal to `x`, in the order of the degrees of freedom: `Nxx, Nxy, Qx, Mxx, Mxy` -/
noncomputable def forceX (l : ℝ × ℝ → Lam) (F Fx Fy : ℕ → ℝ × ℝ → ℝ) (r : ℕ) (x : ℝ × ℝ) : ℝ := match r with
  | 0 => resultant l Fx Fy x 0
  | 1 => resultant l Fx Fy x 2
  | 2 => shearForce l F Fx Fy x 0
  | 3 => resultant l Fx Fy x 3
  | _ => resultant l Fx Fy x 5

/-- forces and moments on a section normal to `y`: `Nxy, Nyy, Qy, Mxy, Myy` -/
noncomputable def forceY (l : ℝ × ℝ → Lam) (F Fx Fy : ℕ → ℝ × ℝ → ℝ) (r : ℕ) (x : ℝ × ℝ) : ℝ := match r with
  | 0 => resultant l Fx Fy x 2
  | 1 => resultant l Fx Fy x 1
  | 2 => shearForce l F Fx Fy x 1
  | 3 => resultant l Fx Fy x 5
  | _ => resultant l Fx Fy x 4

/-- The transverse shear forces turn the moment equations: `Qx` for the first rotation, `Qy` for the second. -/
noncomputable def couple (l : ℝ × ℝ → Lam) (F Fx Fy : ℕ → ℝ × ℝ → ℝ) (r : ℕ) (x : ℝ × ℝ) : ℝ := match r with
  | 3 => shearForce l F Fx Fy x 0
  | 4 => shearForce l F Fx Fy x 1
  | _ => 0

/-- The field `F` solves the equations of the plate `Om` under the loads per area `p`:
`Nxx,x + Nxy,y + p0 = 0`, `Nxy,x + Nyy,y + p1 = 0`, `Qx,x + Qy,y + p2 = 0`, `Mxx,x + Mxy,y - Qx + p3 = 0`, `Mxy,x + Myy,y - Qy + p4 = 0`.
`Xx`, `Xy`, `Yx`, `Yy` are the derivatives of the forces and moments. -/
structure Equilibrium (Om : Set (ℝ × ℝ)) (l : ℝ × ℝ → Lam) (F Fx Fy Xx Xy Yx Yy p : ℕ → ℝ × ℝ → ℝ) : Prop where
  derivX : ∀ r < 5, ∀ x ∈ Om, HasFDerivWithinAt (forceX l F Fx Fy r) (Xx r x • ContinuousLinearMap.fst ℝ ℝ ℝ + Xy r x • ContinuousLinearMap.snd ℝ ℝ ℝ) Om x
  derivY : ∀ r < 5, ∀ x ∈ Om, HasFDerivWithinAt (forceY l F Fx Fy r) (Yx r x • ContinuousLinearMap.fst ℝ ℝ ℝ + Yy r x • ContinuousLinearMap.snd ℝ ℝ ℝ) Om x
  cont : ∀ r < 5, ContinuousOn (Xx r) Om ∧ ContinuousOn (Xy r) Om ∧ ContinuousOn (Yx r) Om ∧ ContinuousOn (Yy r) Om
  balance : ∀ r < 5, ∀ x ∈ Om, Xx r x + Yy r x - couple l F Fx Fy r x + p r x = 0

/-- point on the edge `k` -/
noncomputable def sidePt (m : Mesh) (k : Key) (t : ℝ) : ℝ × ℝ := pt m k.1 + t • (pt m k.2 - pt m k.1)

/-- length of the edge `k` -/
noncomputable def sideLen (m : Mesh) (k : Key) : ℝ := √((nx m k.2 - nx m k.1) ^ 2 + (ny m k.2 - ny m k.1) ^ 2)

/-- work of loads per area `p` on the linear interpolation of the nodal displacements `v` -/
noncomputable def planeWork (m : Mesh) (p : ℕ → ℝ × ℝ → ℝ) (v : ℕ → ℝ) : ℝ :=
  (m.eids.map fun e => ∫ x in hull m e, ∑ r ∈ range 5, p r x * lin m e (disp m v r) x).sum

/-- work of loads per length `q` on the boundary edges on the linear interpolation of `v` -/
noncomputable def edgeWork (m : Mesh) (q : ℕ → ℝ × ℝ → ℝ) (v : ℕ → ℝ) : ℝ :=
  (m.ekeys.map fun k => if (m.edge k).trias.length = 1 then
    ∑ r ∈ range 5, ∫ t in (0:ℝ)..1, sideLen m k * q r (sidePt m k t) * ((1 - t) * disp m v r k.1 + t * disp m v r k.2) else 0).sum

/-- displacement 1 of degree of freedom `j` -/
def unitAt (j : ℕ) : ℕ → ℝ := fun i => if i = j then 1 else 0

/-- The nodal loads `f` are the consistent ones of the loads per area `p` and per length of boundary `q`: each is the work of the loads on displacement 1
of its degree of freedom. Nothing is said about degrees of freedom in `S` (supports). -/
def Consistent (m : Mesh) (p q : ℕ → ℝ × ℝ → ℝ) (S : Set ℕ) (f : ℕ → ℝ) : Prop :=
  ∀ j < 5 * m.nids.length, j ∉ S → f j = planeWork m p (unitAt j) + edgeWork m q (unitAt j)

/-- `nu` is the outward unit normal of side `k` of triangle `e` -/
structure OutNormal (m : Mesh) (e : ℕ) (k : Key) (nu : ℝ × ℝ) : Prop where
  unit : nu.1 ^ 2 + nu.2 ^ 2 = 1
  normal : nu.1 * (nx m k.2 - nx m k.1) + nu.2 * (ny m k.2 - ny m k.1) = 0
  out : ∀ i, IsCorner m e i → nu.1 * (nx m i - nx m k.1) + nu.2 * (ny m i - ny m k.1) ≤ 0

/-- On every boundary edge the forces and moments of the field are the edge loads `q`, in the directions that are not fixed at both ends of the edge. -/
def Traction (m : Mesh) (l : ℝ × ℝ → Lam) (F Fx Fy q : ℕ → ℝ × ℝ → ℝ) (S : Set ℕ) : Prop :=
  ∀ k ∈ m.ekeys, ∀ e, (m.edge k).trias = [e] → ∀ nu, OutNormal m e k nu → ∀ r < 5,
    (5 * m.nids.idxOf k.1 + r ∈ S ∧ 5 * m.nids.idxOf k.2 + r ∈ S) ∨
    ∀ t ∈ Set.Ioo (0:ℝ) 1, nu.1 * forceX l F Fx Fy r (sidePt m k t) + nu.2 * forceY l F Fx Fy r (sidePt m k t) = q r (sidePt m k t)

end Meshless.Spec
