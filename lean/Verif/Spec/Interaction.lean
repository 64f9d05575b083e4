import Verif.Model.KG
import Verif.Spec.Buckling

/-! Vocabulary for several load cases: the buckling analysis of one load case, and the loads a plate withstands without buckling. -/

set_option autoImplicit false

namespace Meshless.Spec
open Finset

/-- one load case: the loads `f`, the displacements `d` of the static solution, the geometric stiffness matrix `G` of `calc_kG` for them -/
structure LoadCase (m : Mesh) (pn : Bool) (K : Mat) (S : Set ℕ) (f : ℕ → ℝ) (d : List ℝ) (G : Mat) : Prop where
  length : d.length = 5 * m.nids.length
  solution : StaticSol K S f (vec d)
  matrix : calcKG (calcK0 m pn).1 d pn = .ok G

/-- Under the loads `f` the plate does not buckle: with the geometric stiffness of the load case the supported matrix is still positive definite. -/
def Withstands (m : Mesh) (pn : Bool) (K : Mat) (S : Set ℕ) (f : ℕ → ℝ) : Prop := ∃ d G, LoadCase m pn K S f d G ∧
  ∀ v, Supported K.dim S v → (∃ i < K.dim, v i ≠ 0) → 0 < form K.dim (fun i j => K.get i j + G.get i j) v v

end Meshless.Spec
