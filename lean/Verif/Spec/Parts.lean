import Verif.Spec.Modes

/-! Vocabulary for meshes of several parts and with nodes that belong to no triangle. Only the data fields of `Mesh` are used. -/

set_option autoImplicit false

namespace Meshless.Spec

/-- `e'` belongs to the same part of the plate as `e`: one can walk from `e` to `e'` across common edges -/
def SamePart (m : Mesh) (e e' : ℕ) : Prop := Relation.ReflTransGen (Adjacent m) e e'

/-- the node is the corner of no triangle -/
def Unused (m : Mesh) (i : ℕ) : Prop := ∀ e ∈ m.eids, ¬IsCorner m e i

/-- a set of nodes without triangle across its border: the corners of every triangle are all inside or all outside -/
def Separate (m : Mesh) (N : Set ℕ) : Prop := ∀ e ∈ m.eids, (∀ i, IsCorner m e i → i ∈ N) ∨ ∀ i, IsCorner m e i → i ∉ N

/-- as `GoodPlate`, but of any number of parts, with or without unused nodes -/
structure GoodParts (m : Mesh) (pn : Bool) : Prop where
  proper : Proper m
  planar : Planar m
  abd : ∀ l, InUse m pn l → StiffABD l
  shear : ∀ l, InUse m pn l → StiffShear l

/-- The part of `e` moves as a rigid body: translations `a`, `b` and rotation `c` in the plane, uniform rotations `p`, `q` of the normals with the
deflection that goes with them. `t` is the factor of the rotations in the shear strains. A part of a single triangle may besides be twisted by `r` about its
centroid. -/
def RigidPart (m : Mesh) (d : ℕ → ℝ) (t : ℝ) (e : ℕ) : Prop := ∃ a b c p q r s : ℝ, (r = 0 ∨ ∀ e', SamePart m e e' → e' = e) ∧
  ∀ e', SamePart m e e' → ∀ i, IsCorner m e' i → disp m d 0 i = a - c * ny m i ∧ disp m d 1 i = b + c * nx m i ∧
    disp m d 3 i = p - r * ny m i ∧ disp m d 4 i = q + r * nx m i ∧
    disp m d 2 i = s - t * ((p - r * mean (ny m) (corners m e)) * nx m i + (q + r * mean (nx m) (corners m e)) * ny m i)

/-- The supports hold the part of `e`: two of its nodes at different places are clamped, or `u`, `v`, `w` and `phix` are fixed at two of its nodes of
different `y`. -/
def HeldPart (m : Mesh) (S : Set ℕ) (e : ℕ) : Prop := ∃ e1 e2 i j, SamePart m e e1 ∧ SamePart m e e2 ∧ IsCorner m e1 i ∧ IsCorner m e2 j ∧
  (((nx m i ≠ nx m j ∨ ny m i ≠ ny m j) ∧ ∀ r < 5, dofNo m i r ∈ S ∧ dofNo m j r ∈ S) ∨
  (ny m i ≠ ny m j ∧ ∀ r < 4, dofNo m i r ∈ S ∧ dofNo m j r ∈ S))

/-- the displacements at the nodes of `N`, zero at the others -/
noncomputable def onlyAt (m : Mesh) (N : Set ℕ) (v : ℕ → ℝ) : ℕ → ℝ := fun x => open Classical in if m.nids.getD (x / 5) 0 ∈ N then v x else 0

end Meshless.Spec
