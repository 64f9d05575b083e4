import Verif.Lemmas.Energy
import Verif.Props.Reader

/-! The running example used for the concrete cases beside the theorems: the unit square cut into two triangles, with laminates. -/

set_option autoImplicit false

namespace Meshless
open Spec

/-- the script of the running example: read the unit square, assign laminates to all nodes and triangles -/
def exOps (p1 p2 p3 p4 q1 q2 : Lam) : List Op :=
  [.setNodeProp 1 (some p1), .setNodeProp 2 (some p2), .setNodeProp 3 (some p3), .setNodeProp 4 (some p4),
   .setTriaProp 1 (some q1), .setTriaProp 2 (some q2)]

/-- the mesh read from `exPts`, `exTris` -/
noncomputable def exRead : Mesh := match readDelaunay exPts (toInts exTris) with | .ok m => m | .error _ => emptyMesh

theorem exRead_ok : readDelaunay exPts (toInts exTris) = .ok exRead := rfl

/-- the example mesh with its laminates -/
noncomputable def exMesh (p1 p2 p3 p4 q1 q2 : Lam) : Mesh := run exRead (exOps p1 p2 p3 p4 q1 q2)

section
variable (p1 p2 p3 p4 q1 q2 : Lam)

theorem exMesh_reachable : Reachable (exMesh p1 p2 p3 p4 q1 q2) := .delaunay exPts (toInts exTris) exRead exRead_ok _

theorem exMesh_nids : (exMesh p1 p2 p3 p4 q1 q2).nids = [1, 2, 3, 4] := rfl
theorem exMesh_eids : (exMesh p1 p2 p3 p4 q1 q2).eids = [1, 2] := rfl
theorem exMesh_ekeys : (exMesh p1 p2 p3 p4 q1 q2).ekeys = [(1, 2), (2, 3), (1, 3), (3, 4), (1, 4)] := rfl

theorem exMesh_tria1 : (exMesh p1 p2 p3 p4 q1 q2).tria 1 = ⟨1, 2, 3, some q1, [(1, 2), (2, 3), (1, 3)]⟩ := rfl
theorem exMesh_tria2 : (exMesh p1 p2 p3 p4 q1 q2).tria 2 = ⟨1, 3, 4, some q2, [(1, 3), (3, 4), (1, 4)]⟩ := rfl
theorem exMesh_node1 : ((exMesh p1 p2 p3 p4 q1 q2).node 1).xyz = ⟨0, 0, 0⟩ := rfl
theorem exMesh_node2 : ((exMesh p1 p2 p3 p4 q1 q2).node 2).xyz = ⟨1, 0, 0⟩ := rfl
theorem exMesh_node3 : ((exMesh p1 p2 p3 p4 q1 q2).node 3).xyz = ⟨1, 1, 0⟩ := rfl
theorem exMesh_node4 : ((exMesh p1 p2 p3 p4 q1 q2).node 4).xyz = ⟨0, 1, 0⟩ := rfl
theorem exMesh_e12 : ((exMesh p1 p2 p3 p4 q1 q2).edge (1, 2)).trias = [1] := rfl
theorem exMesh_e23 : ((exMesh p1 p2 p3 p4 q1 q2).edge (2, 3)).trias = [1] := rfl
theorem exMesh_e13 : ((exMesh p1 p2 p3 p4 q1 q2).edge (1, 3)).trias = [1, 2] := rfl
theorem exMesh_e34 : ((exMesh p1 p2 p3 p4 q1 q2).edge (3, 4)).trias = [2] := rfl
theorem exMesh_e14 : ((exMesh p1 p2 p3 p4 q1 q2).edge (1, 4)).trias = [2] := rfl

theorem exMesh_proper : Proper (exMesh p1 p2 p3 p4 q1 q2) := by
  refine ⟨?_, ?_, ?_⟩
  · intro e he
    rw [exMesh_eids] at he
    simp only [List.mem_cons, List.not_mem_nil, or_false] at he
    rcases he with rfl | rfl
    · rw [exMesh_tria1]; simp
    · rw [exMesh_tria2]; simp
  · intro k hk
    rw [exMesh_ekeys] at hk
    simp only [List.mem_cons, List.not_mem_nil, or_false] at hk
    rcases hk with rfl | rfl | rfl | rfl | rfl
    · rw [exMesh_e12]; simp
    · rw [exMesh_e23]; simp
    · rw [exMesh_e13]; simp
    · rw [exMesh_e34]; simp
    · rw [exMesh_e14]; simp
  · intro e he e' he' h
    rw [exMesh_eids] at he he'
    simp only [List.mem_cons, List.not_mem_nil, or_false] at he he'
    have h2 := h 2
    simp only [IsCorner] at h2
    rcases he with rfl | rfl <;> rcases he' with rfl | rfl
    · rfl
    · rw [exMesh_tria1, exMesh_tria2] at h2; simp at h2
    · rw [exMesh_tria1, exMesh_tria2] at h2; simp at h2
    · rfl

theorem exMesh_planar : Planar (exMesh p1 p2 p3 p4 q1 q2) := by
  refine ⟨?_, ?_, ?_, ?_⟩
  · intro i hi
    rw [exMesh_nids] at hi
    simp only [List.mem_cons, List.not_mem_nil, or_false] at hi
    rcases hi with rfl | rfl | rfl | rfl <;> rfl
  · have : ∀ i ∈ (exMesh p1 p2 p3 p4 q1 q2).nids, ((exMesh p1 p2 p3 p4 q1 q2).node i).xyz.z = 0 := by
      intro i hi
      rw [exMesh_nids] at hi
      simp only [List.mem_cons, List.not_mem_nil, or_false] at hi
      rcases hi with rfl | rfl | rfl | rfl <;> rfl
    intro i hi j hj
    rw [this i hi, this j hj]
  · intro e he
    rw [exMesh_eids] at he
    simp only [List.mem_cons, List.not_mem_nil, or_false] at he
    rcases he with rfl | rfl
    · rw [exMesh_tria1, sarea3]
      simp only [mean_single, nx, ny, exMesh_node1, exMesh_node2, exMesh_node3]
      norm_num
    · rw [exMesh_tria2, sarea3]
      simp only [mean_single, nx, ny, exMesh_node1, exMesh_node4, exMesh_node3]
      norm_num
  · intro k hk t1 t2 ht
    rw [exMesh_ekeys] at hk
    simp only [List.mem_cons, List.not_mem_nil, or_false] at hk
    rcases hk with rfl | rfl | rfl | rfl | rfl
    · rw [exMesh_e12] at ht; simp at ht
    · rw [exMesh_e23] at ht; simp at ht
    · rw [exMesh_e13] at ht
      simp only [List.cons.injEq, and_true] at ht
      obtain ⟨rfl, rfl⟩ := ht
      rw [sarea3, sarea3]
      simp only [mean_single, mean, corners, exMesh_tria1, exMesh_tria2, List.map_cons, List.map_nil, List.sum_cons, List.sum_nil,
        nx, ny, exMesh_node1, exMesh_node2, exMesh_node3, exMesh_node4, List.length_cons, List.length_nil]
      norm_num
    · rw [exMesh_e34] at ht; simp at ht
    · rw [exMesh_e14] at ht; simp at ht

theorem exMesh_props (pn : Bool) : HasProps (exMesh p1 p2 p3 p4 q1 q2) pn := by
  cases pn with
  | true =>
    intro e he i hi
    rw [exMesh_eids] at he
    simp only [List.mem_cons, List.not_mem_nil, or_false] at he
    have : i = 1 ∨ i = 2 ∨ i = 3 ∨ i = 4 := by
      rcases he with rfl | rfl
      · simp only [IsCorner, exMesh_tria1] at hi; omega
      · simp only [IsCorner, exMesh_tria2] at hi; omega
    rcases this with rfl | rfl | rfl | rfl <;> rfl
  | false =>
    intro e he
    rw [exMesh_eids] at he
    simp only [List.mem_cons, List.not_mem_nil, or_false] at he
    rcases he with rfl | rfl <;> rfl

theorem exMesh_ne : (exMesh p1 p2 p3 p4 q1 q2).nids ≠ [] := by rw [exMesh_nids]; simp

end

/-- a simple laminate: diagonal stiffnesses -/
noncomputable def exLam (a d s h : ℝ) : Lam where
  A := fun i j => if i = j then a else 0
  B := fun _ _ => 0
  D := fun i j => if i = j then d else 0
  E := fun i j => if i = j then s else 0
  h := h
  k13 := 1
  k23 := 1

end Meshless
