import Verif.Model.Mesh
import Mathlib.Algebra.BigOperators.Group.List.Basic
import Mathlib.Algebra.BigOperators.Fin

/-! Vocabulary for the plate theory: smoothing domains as polygons, smoothed gradients as boundary integrals over signed area,
laminate matrices. Only the data fields of `Mesh` are used, none of the functions modelling the code. -/

set_option autoImplicit false

namespace Meshless.Spec
open Finset

/-- `i` is a corner of triangle `e` -/
def IsCorner (m : Mesh) (e i : ℕ) : Prop := i = (m.tria e).n1 ∨ i = (m.tria e).n2 ∨ i = (m.tria e).n3

/-- A proper triangulation: three different corners per triangle, at most two triangles per edge, no two triangles on the same
three corners. -/
structure Proper (m : Mesh) : Prop where
  distinct : ∀ e ∈ m.eids, (m.tria e).n1 ≠ (m.tria e).n2 ∧ (m.tria e).n2 ≠ (m.tria e).n3 ∧ (m.tria e).n3 ≠ (m.tria e).n1
  manifold : ∀ k ∈ m.ekeys, (m.edge k).trias.length ≤ 2
  simple : ∀ e ∈ m.eids, ∀ e' ∈ m.eids, (∀ i, IsCorner m e i ↔ IsCorner m e' i) → e = e'

/-- every property needed with the given flag is assigned: at the corners of all triangles, or on all triangles -/
def HasProps (m : Mesh) (pn : Bool) : Prop :=
  if pn then ∀ e ∈ m.eids, ∀ i, IsCorner m e i → (m.node i).prop.isSome else ∀ e ∈ m.eids, (m.tria e).prop.isSome

/-- the corners of a triangle -/
def corners (m : Mesh) (e : ℕ) : List ℕ := [(m.tria e).n1, (m.tria e).n2, (m.tria e).n3]

/-- average of nodal values over a group of nodes. A vertex of a smoothing domain is given by the group of nodes it is the
average of: a node by itself, a centroid by the three corners. -/
noncomputable def mean (f : ℕ → ℝ) (l : List ℕ) : ℝ := (l.map f).sum / l.length

/-- abscissa of a node -/
def nx (m : Mesh) (i : ℕ) : ℝ := (m.node i).xyz.x
/-- ordinate of a node -/
def ny (m : Mesh) (i : ℕ) : ℝ := (m.node i).xyz.y

/-- the smoothing domain of an edge: the polygon through its end nodes and the centroids of its triangles -/
def dom (m : Mesh) (k : Key) : List (List ℕ) :=
  match (m.edge k).trias with
  | [t] => [[k.1], corners m t, [k.2]]
  | [t1, t2] => [[k.1], corners m t1, [k.2], corners m t2]
  | _ => []

/-- sides of a closed polygon -/
def sides {α : Type} (l : List α) : List (α × α) := l.zip (l.rotate 1)

/-- signed area of a polygon (counter-clockwise positive) -/
noncomputable def sarea (m : Mesh) (P : List (List ℕ)) : ℝ :=
  ((sides P).map fun s => mean (nx m) s.1 * mean (ny m) s.2 - mean (nx m) s.2 * mean (ny m) s.1).sum / 2

/-- `∮ f dy` for a field linear on every side -/
noncomputable def circDy (m : Mesh) (P : List (List ℕ)) (f : ℕ → ℝ) : ℝ :=
  ((sides P).map fun s => (mean f s.1 + mean f s.2) / 2 * (mean (ny m) s.2 - mean (ny m) s.1)).sum
/-- `∮ f dx` for a field linear on every side -/
noncomputable def circDx (m : Mesh) (P : List (List ℕ)) (f : ℕ → ℝ) : ℝ :=
  ((sides P).map fun s => (mean f s.1 + mean f s.2) / 2 * (mean (nx m) s.2 - mean (nx m) s.1)).sum

/-- smoothed `∂f/∂x` over a polygon (Green's theorem), independent of the direction of traversal -/
noncomputable def gradX (m : Mesh) (P : List (List ℕ)) (f : ℕ → ℝ) : ℝ := circDy m P f / sarea m P
/-- smoothed `∂f/∂y` over a polygon -/
noncomputable def gradY (m : Mesh) (P : List (List ℕ)) (f : ℕ → ℝ) : ℝ := -circDx m P f / sarea m P

/-- A valid planar geometry: basic coordinates, one common `z`, no triangle of zero area, the two triangles of an interior edge on
opposite sides of it. -/
structure Planar (m : Mesh) : Prop where
  basic : ∀ i ∈ m.nids, (m.node i).cp (m.node i).xyz = (m.node i).xyz
  flat : ∀ i ∈ m.nids, ∀ j ∈ m.nids, (m.node i).xyz.z = (m.node j).xyz.z
  nondeg : ∀ e ∈ m.eids, sarea m [[(m.tria e).n1], [(m.tria e).n2], [(m.tria e).n3]] ≠ 0
  opposite : ∀ k ∈ m.ekeys, ∀ t1 t2, (m.edge k).trias = [t1, t2] →
    sarea m [[k.1], [k.2], corners m t1] * sarea m [[k.1], [k.2], corners m t2] < 0

/-- area of a triangle of the mesh -/
noncomputable def triArea (m : Mesh) (e : ℕ) : ℝ := |sarea m [[(m.tria e).n1], [(m.tria e).n2], [(m.tria e).n3]]|

/-- component `r` (0: u, 1: v, 2: w, 3: phix, 4: phiy) of the displacement at node `i`; nodes are numbered in the order of
`mesh.nodes` -/
def disp (m : Mesh) (v : ℕ → ℝ) (r i : ℕ) : ℝ := v (5 * m.nids.idxOf i + r)

/-- smoothed membrane strains and curvatures `(exx, eyy, gxy, kxx, kyy, kxy)` of an edge's domain -/
noncomputable def eps (m : Mesh) (k : Key) (v : ℕ → ℝ) : Fin 6 → ℝ := ![
  gradX m (dom m k) (disp m v 0),
  gradY m (dom m k) (disp m v 1),
  gradY m (dom m k) (disp m v 0) + gradX m (dom m k) (disp m v 1),
  gradX m (dom m k) (disp m v 3),
  gradY m (dom m k) (disp m v 4),
  gradY m (dom m k) (disp m v 3) + gradX m (dom m k) (disp m v 4)]

/-- entry `(i, j)` of a symmetric 3x3 matrix given by its upper triangle -/
def sym3 (A : Fin 3 → Fin 3 → ℝ) (i j : Fin 3) : ℝ := if i ≤ j then A i j else A j i

/-- the laminate matrix `[A B; B D]` (symmetric, from the upper triangles) -/
def abd (p : Lam) (i j : Fin 6) : ℝ :=
  let a : Fin 3 := ⟨i.val % 3, Nat.mod_lt _ (by decide)⟩
  let b : Fin 3 := ⟨j.val % 3, Nat.mod_lt _ (by decide)⟩
  if i.val < 3 ∧ j.val < 3 then sym3 p.A a b else if 3 ≤ i.val ∧ 3 ≤ j.val then sym3 p.D a b else sym3 p.B a b

/-- a laminate quantity at a place where the property may be missing -/
def ofProp (sel : Lam → ℝ) (p : Option Lam) : ℝ := match p with | some p => sel p | none => 0

/-- A laminate quantity of an edge's domain. From nodes: the average over the vertices of the domain (a centroid having the
average of its corners). From elements: the area-weighted average over the edge's triangles. -/
noncomputable def avg (m : Mesh) (pn : Bool) (k : Key) (sel : Lam → ℝ) : ℝ :=
  if pn then ((dom m k).map (mean fun i => ofProp sel (m.node i).prop)).sum / (dom m k).length
  else (((m.edge k).trias.map fun t => triArea m t * ofProp sel (m.tria t).prop).sum) /
    ((m.edge k).trias.map (triArea m)).sum

/-- `v^T K u` for an `n × n` matrix -/
noncomputable def form (n : ℕ) (K : ℕ → ℕ → ℝ) (v u : ℕ → ℝ) : ℝ := ∑ i ∈ range n, ∑ j ∈ range n, v i * K i j * u j

/-- membrane-bending energy product of two displacement vectors: `Σ_edges area * eps(v)^T [A B; B D] eps(u)` -/
noncomputable def energy (m : Mesh) (pn : Bool) (v u : ℕ → ℝ) : ℝ :=
  (m.ekeys.map fun k => |sarea m (dom m k)| *
    ∑ p, ∑ q, eps m k v p * avg m pn k (fun l => abd l p q) * eps m k u q).sum

end Meshless.Spec
