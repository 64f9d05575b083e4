import Verif.Spec.Plate
import Mathlib.Analysis.Real.Sqrt

/-! Vocabulary for the transverse shear stiffness: discrete shear gap strains of triangles, averaged laminate data of a triangle,
stabilised shear moduli. Only the data fields of `Mesh` are used. -/

set_option autoImplicit false

namespace Meshless.Spec

/-- A flat mesh of non-degenerate triangles in basic coordinates (no condition on how triangles meet). -/
structure FlatMesh (m : Mesh) : Prop where
  basic : ∀ i ∈ m.nids, (m.node i).cp (m.node i).xyz = (m.node i).xyz
  flat : ∀ i ∈ m.nids, ∀ j ∈ m.nids, (m.node i).xyz.z = (m.node j).xyz.z
  nondeg : ∀ e ∈ m.eids, sarea m [[(m.tria e).n1], [(m.tria e).n2], [(m.tria e).n3]] ≠ 0

/-- shear gap from vertex `P` to vertex `Q`: the line integral of `grad w + phi` along the straight side, fields linear on it -/
noncomputable def gap (m : Mesh) (z : ℕ → ℝ) (P Q : List ℕ) : ℝ :=
  mean (disp m z 2) Q - mean (disp m z 2) P
    + (mean (disp m z 3) P + mean (disp m z 3) Q) / 2 * (mean (nx m) Q - mean (nx m) P)
    + (mean (disp m z 4) P + mean (disp m z 4) Q) / 2 * (mean (ny m) Q - mean (ny m) P)

/-- Discrete shear gap strain of the triangle `P Q R` with `P` as origin: gradient of the linear function that is the shear gap from
`P` at the vertices (`0` at `P`). Component 0 is `gamma_xz`, component 1 `gamma_yz`. -/
noncomputable def dsg (m : Mesh) (z : ℕ → ℝ) (P Q R : List ℕ) : Fin 2 → ℝ := ![
  (gap m z P Q * (mean (ny m) R - mean (ny m) P) - gap m z P R * (mean (ny m) Q - mean (ny m) P)) / (2 * sarea m [P, Q, R]),
  (gap m z P R * (mean (nx m) Q - mean (nx m) P) - gap m z P Q * (mean (nx m) R - mean (nx m) P)) / (2 * sarea m [P, Q, R])]

/-- the polygon of a triangle -/
def tpoly (m : Mesh) (e : ℕ) : List (List ℕ) := [[(m.tria e).n1], [(m.tria e).n2], [(m.tria e).n3]]

/-- Smoothed shear strain of a triangle: area average of the discrete shear gap strains of the three sub-triangles between the centroid
(origin) and a side. -/
noncomputable def cellGamma (m : Mesh) (e : ℕ) (z : ℕ → ℝ) (r : Fin 2) : ℝ :=
  ((sides (tpoly m e)).map fun s => |sarea m [corners m e, s.1, s.2]| * dsg m z (corners m e) s.1 s.2 r).sum / triArea m e

/-- error of the literal `0.166666666666667` written for `1/6` in the shear formulas -/
noncomputable def sixthErr : ℝ := 0.166666666666667 - 1 / 6

/-- sum of a rotation component over the corners: 0 for `phix`, 1 for `phiy` -/
def rotSum (m : Mesh) (e : ℕ) (z : ℕ → ℝ) (r : Fin 2) : ℝ := ((corners m e).map (disp m z (3 + r.val))).sum

/-- Discrete shear gap strain of the whole triangle. The origin is the first corner of a counter-clockwise triangle and the second of a
clockwise one. -/
noncomputable def wholeGamma (m : Mesh) (e : ℕ) (z : ℕ → ℝ) : Fin 2 → ℝ :=
  let t := m.tria e
  if 0 < sarea m (tpoly m e) then dsg m z [t.n1] [t.n2] [t.n3] else dsg m z [t.n2] [t.n1] [t.n3]

/-- laminate quantity of a triangle: average over its corners, or its own -/
noncomputable def cavg (m : Mesh) (pn : Bool) (e : ℕ) (sel : Lam → ℝ) : ℝ :=
  if pn then mean (fun i => ofProp sel (m.node i).prop) (corners m e) else ofProp sel (m.tria e).prop

/-- distance of two nodes in the plane -/
noncomputable def dist2 (m : Mesh) (i j : ℕ) : ℝ := Real.sqrt ((nx m i - nx m j) ^ 2 + (ny m i - ny m j) ^ 2)

/-- characteristic length of a triangle: square root of its area, or its longest side -/
noncomputable def charLen (m : Mesh) (fromArea : Bool) (e : ℕ) : ℝ :=
  let t := m.tria e
  if fromArea then Real.sqrt (triArea m e) else max (max (dist2 m t.n1 t.n2) (dist2 m t.n2 t.n3)) (dist2 m t.n3 t.n1)

/-- stabilised transverse shear modulus: `E44` (component 0, `k23 * E[0,0]`) or `E55` (component 1, `k13 * E[1,1]`), times
`h^2 / (h^2 + alpha * l^2)` -/
noncomputable def shearMod (m : Mesh) (pn : Bool) (alpha : ℝ) (fromArea : Bool) (e : ℕ) (r : Fin 2) : ℝ :=
  let h := cavg m pn e fun l => l.h
  h ^ 2 / (h ^ 2 + alpha * charLen m fromArea e ^ 2) *
    (if r = 0 then cavg m pn e (fun l => l.k23) * cavg m pn e (fun l => l.E 0 0)
      else cavg m pn e (fun l => l.k13) * cavg m pn e (fun l => l.E 1 1))

/-- transverse shear energy product `Σ_triangles area * gamma(v)^T diag(E44, E55) gamma(u)` -/
noncomputable def shearEnergy (m : Mesh) (pn : Bool) (alpha : ℝ) (fromArea : Bool) (gamma : ℕ → (ℕ → ℝ) → Fin 2 → ℝ) (v u : ℕ → ℝ) : ℝ :=
  (m.eids.map fun e => triArea m e *
    (gamma e v 0 * shearMod m pn alpha fromArea e 0 * gamma e u 0 + gamma e v 1 * shearMod m pn alpha fromArea e 1 * gamma e u 1)).sum

/-- every triangle has a non-zero (averaged) thickness -/
def Thick (m : Mesh) (pn : Bool) : Prop := ∀ e ∈ m.eids, cavg m pn e (fun l => l.h) ≠ 0

end Meshless.Spec
