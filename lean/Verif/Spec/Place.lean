import Verif.Spec.Iso

/-! Plates given through coordinate systems of a deck (property C145). -/

set_option autoImplicit false

namespace Meshless.Spec

/-- Two meshes of one plate: the same nodes, triangles and laminates, and every node at the same place in the basic system. The numbers
written in the deck and the coordinate systems they refer to may differ. -/
structure SamePlaces (m m' : Mesh) : Prop where
  nids : m'.nids = m.nids
  eids : m'.eids = m.eids
  corner : ∀ e ∈ m.eids, corners m' e = corners m e
  tprop : ∀ e ∈ m.eids, (m'.tria e).prop = (m.tria e).prop
  nprop : ∀ i ∈ m.nids, (m'.node i).prop = (m.node i).prop
  place : ∀ i ∈ m.nids, (m'.node i).cp (m'.node i).xyz = (m.node i).cp (m.node i).xyz

/-- The coordinates of every node are written in the basic system. -/
def InBasic (m : Mesh) : Prop := ∀ i ∈ m.nids, (m.node i).cp (m.node i).xyz = (m.node i).xyz

end Meshless.Spec
