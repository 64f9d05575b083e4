import Verif.Spec.Turn
import Verif.Spec.Buckling

/-! Vocabulary for static and buckling problems of the same plate described in turned axes. Only the data fields of `Mesh` are used. -/

set_option autoImplicit false

namespace Meshless.Spec
open Finset

/-- the shear moduli keep their directions: they are equal in all directions, or the axes are only reversed -/
def KeepsShear (q : Fin 2 → Fin 2 → ℝ) (m : Mesh) : Prop := AllLams m ShearIsotropic ∨ (q 0 1 = 0 ∧ q 1 0 = 0)

/-- `m'` is the flat plate `m` in turned and shifted axes, with its laminates and transverse shear data, its coordinates given in the basic system -/
structure TurnedModel (q : Fin 2 → Fin 2 → ℝ) (π σ : ℕ → ℕ) (a b : ℝ) (m m' : Mesh) : Prop extends TurnedPlate q π σ a b m m' where
  orth : Orthogonal q
  shear : LamRel SameShear π σ m m'
  axes : KeepsShear q m
  basic : ∀ i ∈ m'.nids, (m'.node i).cp (m'.node i).xyz = (m'.node i).xyz
  flat : ∀ i ∈ m'.nids, ∀ j ∈ m'.nids, (m'.node i).xyz.z = (m'.node j).xyz.z

/-- the supports `S'` of `m'` admit exactly the turned displacements of those admitted by the supports `S` of `m` -/
def TurnedSupport (q : Fin 2 → Fin 2 → ℝ) (π : ℕ → ℕ) (m m' : Mesh) (S S' : Set ℕ) : Prop := ∀ z z', TurnedDisp q π m m' z z' →
  (Supported (5 * m.nids.length) S z ↔ Supported (5 * m'.nids.length) S' z')

end Meshless.Spec
