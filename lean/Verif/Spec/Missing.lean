import Verif.Spec.Plate

/-! Vocabulary for missing properties. -/

set_option autoImplicit false

namespace Meshless.Spec

/-- triangle `e` has the properties needed with the given flag: at its corners, or its own -/
def triHas (m : Mesh) (pn : Bool) (e : ℕ) : Bool := if pn then (corners m e).all fun i => (m.node i).prop.isSome else (m.tria e).prop.isSome

/-- so have the triangles at edge `k` -/
def sideHas (m : Mesh) (pn : Bool) (k : Key) : Bool := (m.edge k).trias.all (triHas m pn)

/-- the mesh cut off before its first triangle and its first edge of missing properties -/
def cutOff (m : Mesh) (pn : Bool) : Mesh := { m with eids := m.eids.takeWhile (triHas m pn), ekeys := m.ekeys.takeWhile (sideHas m pn) }

end Meshless.Spec
