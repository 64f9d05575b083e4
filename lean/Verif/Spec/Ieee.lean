import Verif.Model.Ieee
import Verif.Spec.Float
import Verif.Spec.Plate

/-! Vocabulary for the properties on floating-point formats with infinities and NaN (C150-C152). -/

set_option autoImplicit false

namespace Meshless.Spec

/-- every entry of the computed matrix is a finite number, at most `δ` away from that of `K` -/
def CloseTo (F : FMat) (K : Mat) (δ : ℝ) : Prop :=
  F.dim = K.dim ∧ ∀ i < K.dim, ∀ j < K.dim, ∃ x, F.get i j = .fin x ∧ |x - K.get i j| ≤ δ

/-- `calc_k0` followed by `add_k0s` in the format `f` returns `K` -/
def FmtAssembled (f : Fmt) (m : Mesh) (pn : Bool) (method : String) (al : ℝ) (fa : Bool) (K : FMat) : Prop :=
  ∃ K0, (f.calcK0 m pn).2.2 = .ok K0 ∧ f.addK0s K0 (f.calcK0 m pn).1 (f.calcK0 m pn).2.1 pn method al fa = (K, none)

/-- the same outcome: the same exception, or two matrices of the same size -/
def SameEnd (a : Except Err Mat) (b : Except Err FMat) : Prop :=
  (∃ x, a = .error x ∧ b = .error x) ∨ ∃ K F, a = .ok K ∧ b = .ok F ∧ F.dim = K.dim

/-- a finite number other than 0 -/
def Usable : Flo → Prop
  | .fin x => x ≠ 0
  | _ => False

/-- `i` is a corner of a triangle at the edge `k` -/
def AtEdge (m : Mesh) (k : Key) (i : ℕ) : Prop := ∃ t ∈ (m.edge k).trias, IsCorner m t i

/-- the edge `k` has one triangle -/
def OneTria (m : Mesh) (k : Key) : Prop := (m.edge k).trias.length = 1

/-- the nodes whose rows and columns of k0 an edge writes to: the corners of its triangles and, for an edge with one triangle, the last node of the mesh -/
def WritesK0 (m : Mesh) (k : Key) (i : ℕ) : Prop := AtEdge m k i ∨ OneTria m k ∧ m.nids.getLast? = some i

/-- the nodes whose rows and columns of kG an edge writes to: the corners of its triangles and, for an edge with one triangle, the first node of the mesh -/
def WritesKG (m : Mesh) (k : Key) (i : ℕ) : Prop := AtEdge m k i ∨ OneTria m k ∧ m.nids.head? = some i

/-- every corner of every triangle at the edge `k` has abscissa 0, or every one has ordinate 0 -/
def OnAxis (m : Mesh) (k : Key) : Prop :=
  (∀ i, AtEdge m k i → (m.pos i).x = 0 ∧ (m.node i).xyz.x = 0) ∨ ∀ i, AtEdge m k i → (m.pos i).y = 0 ∧ (m.node i).xyz.y = 0

end Meshless.Spec
