import Verif.Model.FloatSession
import Verif.Spec.Buckling
import Verif.Spec.ShearEdge

/-! Reference notions for analyses carried out in floating-point arithmetic. -/

set_option autoImplicit false

namespace Meshless.Spec
open Finset

/-- two calls end alike: both raise the same exception or both return a matrix, of the same size -/
def SameResult : Except Err Mat → Except Err Mat → Prop
  | .error e, .error e' => e' = e
  | .ok K, .ok F => F.dim = K.dim
  | _, _ => False

/-- `K` is the stiffness matrix a script gets from `K = calc_k0(mesh, pn)` and `add_k0s(K, mesh, pn, method, alpha, maxl_from_area)` -/
def Assembled (m : Mesh) (pn : Bool) (method : String) (al : ℝ) (fa : Bool) (K : Mat) : Prop :=
  ∃ K0, (calcK0 m pn).2 = .ok K0 ∧ addK0s K0 (calcK0 m pn).1 pn method al fa = (K, none)

/-- the same in floating-point arithmetic -/
def FlAssembled (R : Rounding) (m : Mesh) (pn : Bool) (method : String) (al : ℝ) (fa : Bool) (K : Mat) : Prop :=
  ∃ K0, (R.calcK0 m pn).2 = .ok K0 ∧ R.addK0s K0 (R.calcK0 m pn).1 pn method al fa = (K, none)

/-- `d` is a computed solution of the static problem: zero at the supports, and at the free degrees of freedom the residual is at most `ε`
times the size of the terms of the equation. Backward stable solvers return such vectors, with `ε` a multiple of the unit roundoff. -/
def SolvedUpTo (K : Mat) (S : Set ℕ) (f d : ℕ → ℝ) (ε : ℝ) : Prop := Supported K.dim S d ∧ ∀ i < K.dim, i ∉ S →
  |∑ j ∈ range K.dim, K.get i j * d j - f i| ≤ ε * (∑ j ∈ range K.dim, |K.get i j| * |d j| + |f i|)

/-- the averaged thicknesses the chosen method divides by are not zero -/
def ThickFor (method : String) (m : Mesh) (pn : Bool) : Prop := if method = "edge-based" then EdgeThick m pn else Thick m pn

end Meshless.Spec
