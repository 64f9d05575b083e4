import Verif.Props.ShearMat
import Verif.Spec.Buckling

/-! Vocabulary for shear locking. -/

set_option autoImplicit false

namespace Meshless.Spec

/-- the supports leave no displacement without transverse shear strain: the triangles have more shear strains than the plate has free degrees of freedom -/
def ShearHeld (m : Mesh) (method : String) (S : Set ℕ) : Prop :=
  ∀ z, Supported (5 * m.nids.length) S z → (∀ e ∈ m.eids, ∀ r, methodStrain m method e z r = 0) → ∀ i < 5 * m.nids.length, z i = 0

end Meshless.Spec
