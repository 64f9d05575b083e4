import Verif.Spec.Shear

/-! Vocabulary for the edge-based transverse shear stiffness: the smoothed discrete shear gap strain of an edge's domain, its moduli,
and, kept apart from these, the deviations of the printed formulas from them (rounded literals, a `z` coordinate used as a `y`). Only the
data fields of `Mesh` are used. -/

set_option autoImplicit false

namespace Meshless.Spec

/-- the end nodes of an edge, ordered so that they are counter-clockwise with the centroid of triangle `t` -/
noncomputable def ends (m : Mesh) (k : Key) (t : ℕ) : ℕ × ℕ := if sarea m [[k.1], [k.2], corners m t] < 0 then (k.2, k.1) else (k.1, k.2)

/-- Smoothed shear strain of an edge's domain: the area average of the discrete shear gap strains of the sub-triangles between the edge and
the centroids of its triangles. The origin of the gap is the centroid in the first triangle, the first end node in the second. -/
noncomputable def edgeGamma (m : Mesh) (k : Key) (z : ℕ → ℝ) (r : Fin 2) : ℝ :=
  match (m.edge k).trias with
  | [t] => let e := ends m k t
    dsg m z (corners m t) [e.1] [e.2] r
  | [t1, t2] => let e := ends m k t1
    (|sarea m [corners m t1, [e.1], [e.2]]| * dsg m z (corners m t1) [e.1] [e.2] r
      + |sarea m [[e.1], corners m t2, [e.2]]| * dsg m z [e.1] (corners m t2) [e.2] r) / |sarea m (dom m k)|
  | _ => 0

/-- distance of two vertices in the plane -/
noncomputable def vdist (m : Mesh) (P Q : List ℕ) : ℝ :=
  Real.sqrt ((mean (nx m) P - mean (nx m) Q) ^ 2 + (mean (ny m) P - mean (ny m) Q) ^ 2)

/-- characteristic length of an edge: square root of the area of its domain, or the longest of the sides of the domain and the edge -/
noncomputable def edgeCharLen (m : Mesh) (fromArea : Bool) (k : Key) : ℝ :=
  if fromArea then Real.sqrt |sarea m (dom m k)| else (((sides (dom m k)).map fun s => vdist m s.1 s.2) ++ [vdist m [k.1] [k.2]]).foldr max 0

/-- `h^2 / (h^2 + alpha * l^2)` of an edge -/
noncomputable def edgeStab (m : Mesh) (pn : Bool) (alpha : ℝ) (fromArea : Bool) (k : Key) : ℝ :=
  let h := avg m pn k fun l => l.h
  h ^ 2 / (h ^ 2 + alpha * edgeCharLen m fromArea k ^ 2)

/-- stabilised moduli of a boundary edge: `k23 * E[0,0]`, `k13 * E[1,1]`, no coupling -/
noncomputable def bndMod (m : Mesh) (pn : Bool) (alpha : ℝ) (fromArea : Bool) (k : Key) (r s : Fin 2) : ℝ :=
  edgeStab m pn alpha fromArea k *
    (if r = s then (if r = 0 then avg m pn k (fun l => l.k23) * avg m pn k (fun l => l.E 0 0)
      else avg m pn k (fun l => l.k13) * avg m pn k (fun l => l.E 1 1)) else 0)

/-- stabilised moduli of an interior edge: `k13 * E[0,0]`, `k23 * E[1,1]`, coupling `min(k13, k23) * E[0,1]` -/
noncomputable def intMod (m : Mesh) (pn : Bool) (alpha : ℝ) (fromArea : Bool) (k : Key) (r s : Fin 2) : ℝ :=
  edgeStab m pn alpha fromArea k *
    (if r = s then (if r = 0 then avg m pn k (fun l => l.k13) * avg m pn k (fun l => l.E 0 0)
      else avg m pn k (fun l => l.k23) * avg m pn k (fun l => l.E 1 1))
      else min (avg m pn k fun l => l.k13) (avg m pn k fun l => l.k23) * avg m pn k (fun l => l.E 0 1))

/-- the moduli used for an edge -/
noncomputable def edgeMod (m : Mesh) (pn : Bool) (alpha : ℝ) (fromArea : Bool) (k : Key) (r s : Fin 2) : ℝ :=
  if (m.edge k).trias.length = 1 then bndMod m pn alpha fromArea k r s else intMod m pn alpha fromArea k r s

/-- `Σ_rs x_r E_rs y_s` -/
noncomputable def form2 (E : Fin 2 → Fin 2 → ℝ) (x y : Fin 2 → ℝ) : ℝ := ∑ r, ∑ s, x r * E r s * y s

/-- the energy product of one edge for a given strain and given moduli -/
noncomputable def edgeEnergy (m : Mesh) (k : Key) (E : Fin 2 → Fin 2 → ℝ) (gamma : (ℕ → ℝ) → Fin 2 → ℝ) (v u : ℕ → ℝ) : ℝ :=
  |sarea m (dom m k)| * form2 E (gamma v) (gamma u)

/-- every edge has a non-zero (averaged) thickness -/
def EdgeThick (m : Mesh) (pn : Bool) : Prop := ∀ k ∈ m.ekeys, avg m pn k (fun l => l.h) ≠ 0

/-! ### deviations of the printed formulas -/

/-- error of the literal `0.0833333333333333` written for `1/12` -/
noncomputable def twelfthErr : ℝ := 0.0833333333333333 - 1 / 12
/-- `0.0277777777777778`, written for the square of the literal for `1/6`, minus that square -/
noncomputable def sqErr : ℝ := 0.0277777777777778 - 0.166666666666667 ^ 2
/-- `0.0138888888888889`, written for the product of the literals for `1/6` and `1/12`, minus that product -/
noncomputable def prodErr : ℝ := 0.0138888888888889 - 0.166666666666667 * 0.0833333333333333
/-- `0.0416666666666667`, written for a quarter of the literal for `1/6`, minus that quarter -/
noncomputable def quarterErr : ℝ := 0.0416666666666667 - 0.166666666666667 / 4

/-- sum of a displacement component over the corners of a triangle -/
def cSum (m : Mesh) (t : ℕ) (z : ℕ → ℝ) (r : ℕ) : ℝ := ((corners m t).map (disp m z r)).sum

/-- a displacement component at the corner of `t` that is not on the edge -/
def third (m : Mesh) (k : Key) (t : ℕ) (z : ℕ → ℝ) (r : ℕ) : ℝ := cSum m t z r - disp m z r k.1 - disp m z r k.2

/-- the segment from node `a` to node `b` turned by a right angle -/
def turned (m : Mesh) (a b : ℕ) (r : Fin 2) : ℝ := if r = 0 then ny m b - ny m a else nx m a - nx m b

/-- effect of the literals in the first sub-triangle, times its area -/
noncomputable def lit1 (m : Mesh) (t a b : ℕ) (z : ℕ → ℝ) (r : Fin 2) : ℝ :=
  sixthErr * (|sarea m [corners m t, [a], [b]]| * cSum m t z (3 + r.val) - turned m a b r * cSum m t z 2)

/-- effect of the literals in the second sub-triangle, times its area -/
noncomputable def lit2 (m : Mesh) (t a b : ℕ) (z : ℕ → ℝ) (r : Fin 2) : ℝ :=
  let x := mean (nx m) (corners m t) - nx m a
  let y := mean (ny m) (corners m t) - ny m a
  turned m a b r * (sixthErr * cSum m t z 2 +
    (if r = 0 then x * (twelfthErr * cSum m t z 3) + y * (twelfthErr * (cSum m t z 4 - disp m z 4 b) - sixthErr * disp m z 4 b)
      else x * (twelfthErr * (cSum m t z 3 - disp m z 3 b) - sixthErr * disp m z 3 b) + y * (twelfthErr * cSum m t z 4)))

/-- effect, in the first sub-triangle of an interior edge and times its area, of the `z` coordinate of the first node used as its `y` -/
noncomputable def swap1 (m : Mesh) (t a b : ℕ) (z : ℕ → ℝ) (r : Fin 2) : ℝ :=
  ((m.node a).xyz.z - ny m a) *
    (if r = 0 then -disp m z 2 b / 2 + 0.166666666666667 * cSum m t z 2 - (nx m b - mean (nx m) (corners m t)) / 4 * disp m z 3 b
        + (ny m b - mean (ny m) (corners m t)) / 4 * (disp m z 4 a - disp m z 4 b)
      else -((nx m b - mean (nx m) (corners m t)) / 4 * disp m z 4 a))

/-- deviation of the strain of an edge -/
noncomputable def devGamma (m : Mesh) (k : Key) (z : ℕ → ℝ) (r : Fin 2) : ℝ :=
  match (m.edge k).trias with
  | [t] => let e := ends m k t
    lit1 m t e.1 e.2 z r / |sarea m (dom m k)|
  | [t1, t2] => let e := ends m k t1
    (lit1 m t1 e.1 e.2 z r + swap1 m t1 e.1 e.2 z r + lit2 m t2 e.1 e.2 z r) / |sarea m (dom m k)|
  | _ => 0

/-- rotations at the opposite node of the first triangle, times the share of its sub-triangle in the domain -/
noncomputable def residRho (m : Mesh) (k : Key) (z : ℕ → ℝ) (r : Fin 2) : ℝ :=
  match (m.edge k).trias with
  | [t] => third m k t z (3 + r.val)
  | [t1, _] => let e := ends m k t1
    |sarea m [corners m t1, [e.1], [e.2]]| / |sarea m (dom m k)| * third m k t1 z (3 + r.val)
  | _ => 0

/-- rounding of the coefficients of mixed products at the end nodes of a boundary edge -/
noncomputable def residEta (m : Mesh) (k : Key) (z : ℕ → ℝ) (r : Fin 2) : ℝ :=
  match (m.edge k).trias with
  | [t] => let e := ends m k t
    let X := mean (nx m) (corners m t)
    let Y := mean (ny m) (corners m t)
    quarterErr * (if r = 0 then (ny m e.1 - Y) * (ny m e.2 - Y) * (disp m z 4 e.1 - disp m z 4 e.2)
      else -((nx m e.1 - X) * (nx m e.2 - X) * (disp m z 3 e.1 - disp m z 3 e.2)))
  | _ => 0

/-- rounding of the coefficients of mixed products at the opposite nodes -/
noncomputable def residKappa (m : Mesh) (k : Key) (z : ℕ → ℝ) (r : Fin 2) : ℝ :=
  match (m.edge k).trias with
  | [t] => let e := ends m k t
    sqErr * (|sarea m (dom m k)| * third m k t z (3 + r.val) - turned m e.1 e.2 r * third m k t z 2)
  | [t1, t2] => let e := ends m k t1
    sqErr * (|sarea m [corners m t1, [e.1], [e.2]]| * third m k t1 z (3 + r.val)) +
      turned m e.1 e.2 r * (sqErr * third m k t2 z 2 +
        prodErr * ((mean (nx m) (corners m t2) - nx m e.1) * third m k t2 z 3 + (mean (ny m) (corners m t2) - ny m e.1) * third m k t2 z 4))
  | _ => 0

/-- the part of one edge that is not of the form `gamma(v)^T E gamma(u)` -/
noncomputable def edgeResid (m : Mesh) (k : Key) (E : Fin 2 → Fin 2 → ℝ) (v u : ℕ → ℝ) : ℝ :=
  form2 E (residRho m k v) (fun r => residEta m k u r + residKappa m k u r) + form2 E (residEta m k v) (residRho m k u)

end Meshless.Spec
