import Verif.Spec.Equilibrium

/-! Plates in a state of constant strain and curvature. -/

set_option autoImplicit false

namespace Meshless.Spec

/-- a state of constant membrane strains and curvatures without transverse shear -/
structure Pure where
  /-- in-plane displacements `u = u0 + ux x + uy y`, `v = v0 + vx x + vy y` -/
  (u0 ux uy v0 vx vy : ℝ)
  /-- deflection at the origin, rotations `phix = a + kx x + kxy y`, `phiy = b + kxy x + ky y` -/
  (w0 a b kx ky kxy : ℝ)

/-- the displacements; the deflection has the slopes `-phix`, `-phiy` -/
noncomputable def Pure.val (s : Pure) (r : ℕ) (x : ℝ × ℝ) : ℝ := match r with
  | 0 => s.u0 + s.ux * x.1 + s.uy * x.2
  | 1 => s.v0 + s.vx * x.1 + s.vy * x.2
  | 2 => s.w0 - (s.a * x.1 + s.b * x.2 + s.kx * x.1 ^ 2 / 2 + s.kxy * x.1 * x.2 + s.ky * x.2 ^ 2 / 2)
  | 3 => s.a + s.kx * x.1 + s.kxy * x.2
  | _ => s.b + s.kxy * x.1 + s.ky * x.2

/-- derivatives with respect to `x` -/
noncomputable def Pure.dx (s : Pure) (r : ℕ) (x : ℝ × ℝ) : ℝ := match r with
  | 0 => s.ux
  | 1 => s.vx
  | 2 => -(s.a + s.kx * x.1 + s.kxy * x.2)
  | 3 => s.kx
  | _ => s.kxy

/-- derivatives with respect to `y` -/
noncomputable def Pure.dy (s : Pure) (r : ℕ) (x : ℝ × ℝ) : ℝ := match r with
  | 0 => s.uy
  | 1 => s.vy
  | 2 => -(s.b + s.kxy * x.1 + s.ky * x.2)
  | 3 => s.kxy
  | _ => s.ky

/-- no rotation anywhere -/
def Pure.Flat (s : Pure) : Prop := s.a = 0 ∧ s.b = 0 ∧ s.kx = 0 ∧ s.ky = 0 ∧ s.kxy = 0

end Meshless.Spec
