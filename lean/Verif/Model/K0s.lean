import Verif.Model.K0
import Verif.Model.Gen.CellS
import Verif.Model.Gen.CellNS
import Verif.Model.Gen.EdgeB
import Verif.Model.Gen.EdgeI

/-! meshless/espim/plate2d_add_k0s.py and its three implementations. The matrix is modified in place: every function returns
its final contents together with the exception, if any. -/

set_option autoImplicit false

namespace Meshless

/-- The laminate data used for transverse shear: `k13`, `k23`, `E`, `h` after averaging, plate2d_add_k0s_cell_based.py:63-75 -/
structure ShearProp where
  (k13 k23 h : ℝ)
  E : Fin 2 → Fin 2 → ℝ

/-- The laminate's own values (prop_from_node False), plate2d_add_k0s_cell_based.py:72-75 -/
def Lam.shear (p : Lam) : ShearProp := ⟨p.k13, p.k23, p.h, p.E⟩

/-- `c1*p1 + c2*p2 + c3*p3` for each of `k13`, `k23`, `E`, `h`: plate2d_add_k0s_cell_based.py:64-70 (1/3 each),
plate2d_add_k0s_edge_based.py:32-38 (4/9, 4/9, 1/9) -/
noncomputable def shear3 (c1 c2 c3 : ℝ) (p q r : Lam) : ShearProp :=
  ⟨c1 * p.k13 + c2 * q.k13 + c3 * r.k13, c1 * p.k23 + c2 * q.k23 + c3 * r.k23, c1 * p.h + c2 * q.h + c3 * r.h,
    mix3 c1 c2 c3 p.E q.E r.E⟩

/-- `5/12*... + 1/12*...`, plate2d_add_k0s_edge_based.py:183-186 -/
noncomputable def shear4 (p q r s : Lam) : ShearProp :=
  ⟨5/12 * p.k13 + 5/12 * q.k13 + 1/12 * r.k13 + 1/12 * s.k13, 5/12 * p.k23 + 5/12 * q.k23 + 1/12 * r.k23 + 1/12 * s.k23,
    5/12 * p.h + 5/12 * q.h + 1/12 * r.h + 1/12 * s.h, mix4 (5/12) (5/12) (1/12) (1/12) p.E q.E r.E s.E⟩

/-- `(Ac1*p + Ac2*q)/Ac`, plate2d_add_k0s_edge_based.py:191-194 -/
noncomputable def shearA (Ac1 Ac2 Ac : ℝ) (p q : Lam) : ShearProp :=
  ⟨(Ac1 * p.k13 + Ac2 * q.k13) / Ac, (Ac1 * p.k23 + Ac2 * q.k23) / Ac, (Ac1 * p.h + Ac2 * q.h) / Ac, mixA Ac1 Ac2 Ac p.E q.E⟩

/-- Properties of a triangle with corners `n1 n2 n3`, plate2d_add_k0s_cell_based.py:63-75,
plate2d_add_k0s_cell_based_no_smoothing.py:30-42; `None.scf_k13` is an AttributeError. -/
noncomputable def cellShear (m : Mesh) (pn : Bool) (e n1 n2 n3 : ℕ) : Except Err ShearProp :=
  if pn then
    match (m.node n1).prop, (m.node n2).prop, (m.node n3).prop with
    | some p, some q, some r => .ok (shear3 (1/3) (1/3) (1/3) p q r)
    | _, _, _ => .error .attributeError
  else
    match (m.tria e).prop with
    | some p => .ok p.shear
    | none => .error .attributeError

/-- `max([...])` of a Python list: ValueError (`none`) on the empty list, plate2d_add_k0s_cell_based.py:83 -/
noncomputable def pyMax : List ℝ → Option ℝ
  | [] => none
  | a :: l => some (l.foldl max a)

/-- `np.sum((e.n1.xyz - e.n2.xyz)**2)**0.5`, plate2d_add_k0s_cell_based.py:83 -/
noncomputable def edgeLen (m : Mesh) (k : Key) : ℝ := ((m.node (m.edge k).n1).xyz.sub (m.node (m.edge k).n2).xyz).norm

/-- `maxl` of the cell methods, plate2d_add_k0s_cell_based.py:80-83, plate2d_add_k0s_cell_based_no_smoothing.py:48-51 -/
noncomputable def cellMaxl (m : Mesh) (e : ℕ) (Ac : ℝ) (fromArea : Bool) : Except Err ℝ :=
  if fromArea then .ok (Real.sqrt Ac)
  else match pyMax ((m.tria e).edges.map (edgeLen m)) with
    | some a => .ok a
    | none => .error .valueError

/-- `factor = alpha*maxl**2/h**2` and `1 / (1 + factor)`, plate2d_add_k0s_cell_based.py:85-86 -/
noncomputable def stab (alpha maxl h : ℝ) : ℝ := 1 / (1 + alpha * maxl ^ 2 / h ^ 2)

/-- The corner swap of `add_k0s` (cell based), plate2d_add_k0s_cell_based.py:20-24 -/
noncomputable def cellOrient (m : Mesh) (e : ℕ) : ℕ × ℕ × ℕ :=
  let t := m.tria e
  if Vec3.dot (Vec3.cross ((m.node t.n1).xyz.sub (m.mid e)) ((m.node t.n2).xyz.sub (m.mid e))) zGlobal < 0
  then (t.n2, t.n1, t.n3) else (t.n1, t.n2, t.n3)

/-- The local variables of one triangle, plate2d_add_k0s_cell_based.py:19-92 -/
noncomputable def cellSEnv (m : Mesh) (pn : Bool) (alpha : ℝ) (fromArea : Bool) (e : ℕ) : Except Err (CellSEnv ℝ) := do
  let (n1, n2, n3) := cellOrient m e
  let mid := m.mid e
  let p1 := (m.node n1).xyz; let p2 := (m.node n2).xyz; let p3 := (m.node n3).xyz
  let Ac := m.triaArea e
  let sp ← cellShear m pn e n1 n2 n3
  let maxl ← cellMaxl m e Ac fromArea
  match (m.node n1).index, (m.node n2).index, (m.node n3).index with
  | some i1, some i2, some i3 =>
    .ok { i1, i2, i3, Ac,
          a1 := p1.x - mid.x, b1 := p1.y - mid.y, c1 := p2.x - mid.x, d1 := p2.y - mid.y, Ac1 := polyArea [mid, p1, p2],
          a2 := p2.x - mid.x, b2 := p2.y - mid.y, c2 := p3.x - mid.x, d2 := p3.y - mid.y, Ac2 := polyArea [mid, p2, p3],
          a3 := p3.x - mid.x, b3 := p3.y - mid.y, c3 := p1.x - mid.x, d3 := p1.y - mid.y, Ac3 := polyArea [mid, p3, p1],
          E44 := stab alpha maxl sp.h * (sp.k23 * sp.E 0 0), E45 := 0, E55 := stab alpha maxl sp.h * (sp.k13 * sp.E 1 1) }
  | _, _, _ => .error .typeError

/-- The corner swap without smoothing, plate2d_add_k0s_cell_based_no_smoothing.py:15-18 -/
noncomputable def cellNSOrient (m : Mesh) (e : ℕ) : ℕ × ℕ × ℕ :=
  let t := m.tria e
  let p1 := (m.node t.n1).xyz
  if Vec3.dot (Vec3.cross ((m.node t.n2).xyz.sub p1) ((m.node t.n3).xyz.sub p1)) zGlobal < 0
  then (t.n2, t.n1, t.n3) else (t.n1, t.n2, t.n3)

/-- The local variables of one triangle, plate2d_add_k0s_cell_based_no_smoothing.py:15-60 -/
noncomputable def cellNSEnv (m : Mesh) (pn : Bool) (alpha : ℝ) (fromArea : Bool) (e : ℕ) : Except Err (CellNSEnv ℝ) := do
  let (n1, n2, n3) := cellNSOrient m e
  let p1 := (m.node n1).xyz; let p2 := (m.node n2).xyz; let p3 := (m.node n3).xyz
  let Ac := m.triaArea e
  let sp ← cellShear m pn e n1 n2 n3
  let maxl ← cellMaxl m e Ac fromArea
  match (m.node n1).index, (m.node n2).index, (m.node n3).index with
  | some i1, some i2, some i3 =>
    .ok { i1, i2, i3, Ac,
          a1 := p2.x - p1.x, b1 := p2.y - p1.y, c1 := p3.x - p1.x, d1 := p3.y - p1.y,
          E44 := stab alpha maxl sp.h * (sp.k23 * sp.E 0 0), E45 := 0, E55 := stab alpha maxl sp.h * (sp.k13 * sp.E 1 1) }
  | _, _, _ => .error .typeError

/-- One triangle of `add_k0s` (cell based), plate2d_add_k0s_cell_based.py:13-174 -/
noncomputable def cellSTria (m : Mesh) (pn : Bool) (alpha : ℝ) (fromArea : Bool) (K : Mat) (e : ℕ) : Mat × Option Err :=
  match cellSEnv m pn alpha fromArea e with
  | .error x => (K, some x)
  | .ok env => K.addAll (cellSEntries env)

/-- One triangle of `add_k0s` without smoothing, plate2d_add_k0s_cell_based_no_smoothing.py:12-142 -/
noncomputable def cellNSTria (m : Mesh) (pn : Bool) (alpha : ℝ) (fromArea : Bool) (K : Mat) (e : ℕ) : Mat × Option Err :=
  match cellNSEnv m pn alpha fromArea e with
  | .error x => (K, some x)
  | .ok env => K.addAll (cellNSEntries env)

/-- `maxl` of a boundary edge, plate2d_add_k0s_edge_based.py:49-52 -/
noncomputable def edgeBMaxl (ed : Edge) (Ac : ℝ) (fromArea : Bool) : Except Err ℝ :=
  if fromArea then .ok (Real.sqrt Ac)
  else match pyMax (ed.ipts.map (·.le)) with
    | some a => .ok a
    | none => .error .valueError

/-- `maxl` of an interior edge, plate2d_add_k0s_edge_based.py:200-203 -/
noncomputable def edgeIMaxl (m : Mesh) (ed : Edge) (Ac : ℝ) (fromArea : Bool) : Except Err ℝ :=
  if fromArea then .ok (Real.sqrt Ac)
  else match pyMax (ed.ipts.map (·.le)) with
    | some a => .ok (max a ((m.node ed.n1).xyz.sub (m.node ed.n2).xyz).norm)
    | none => .error .valueError

/-- Properties of a boundary edge, plate2d_add_k0s_edge_based.py:31-43 -/
noncomputable def edgeBShear (m : Mesh) (pn : Bool) (t1 n1 n2 o1 : ℕ) : Except Err ShearProp :=
  if pn then
    match (m.node n1).prop, (m.node n2).prop, (m.node o1).prop with
    | some p, some q, some r => .ok (shear3 (4/9) (4/9) (1/9) p q r)
    | _, _, _ => .error .attributeError
  else
    match (m.tria t1).prop with
    | some p => .ok p.shear
    | none => .error .attributeError

/-- Properties of an interior edge, plate2d_add_k0s_edge_based.py:178-194 -/
noncomputable def edgeIShear (m : Mesh) (pn : Bool) (Ac1 Ac2 Ac : ℝ) (t1 t2 n1 n2 o1 o2 : ℕ) : Except Err ShearProp :=
  if pn then
    match (m.node n1).prop, (m.node n2).prop, (m.node o1).prop, (m.node o2).prop with
    | some p, some q, some r, some s => .ok (shear4 p q r s)
    | _, _, _, _ => .error .attributeError
  else
    match (m.tria t1).prop, (m.tria t2).prop with
    | some p, some q => .ok (shearA Ac1 Ac2 Ac p q)
    | _, _ => .error .attributeError

/-- Moduli of a boundary edge, plate2d_add_k0s_edge_based.py:45-57: `(E44, E45, E55)` -/
noncomputable def edgeBModuli (sp : ShearProp) (alpha maxl : ℝ) : ℝ × ℝ × ℝ :=
  (stab alpha maxl sp.h * (sp.k23 * sp.E 0 0), 0, stab alpha maxl sp.h * (sp.k13 * sp.E 1 1))

/-- Moduli of an interior edge, plate2d_add_k0s_edge_based.py:196-207: `(E44, E45, E55)` -/
noncomputable def edgeIModuli (sp : ShearProp) (alpha maxl : ℝ) : ℝ × ℝ × ℝ :=
  let c := sp.h ^ 2 / (sp.h ^ 2 + alpha * maxl ^ 2)
  (c * (sp.k13 * sp.E 0 0), c * (min sp.k13 sp.k23 * sp.E 0 1), c * (sp.k23 * sp.E 1 1))

/-- The local variables of `boundary_edge`, plate2d_add_k0s_edge_based.py:12-57 -/
noncomputable def edgeBEnv (m : Mesh) (pn : Bool) (alpha : ℝ) (fromArea : Bool) (ed : Edge) (t1 n1 n2 : ℕ) :
    Except Err (EdgeBEnv ℝ) :=
  match ed.other1, ed.Ac with
  | some o1, some Ac => do
    let mid1 := m.mid t1
    let p1 := (m.node n1).xyz; let p2 := (m.node n2).xyz
    let sp ← edgeBShear m pn t1 n1 n2 o1
    let maxl ← edgeBMaxl ed Ac fromArea
    let (E44, E45, E55) := edgeBModuli sp alpha maxl
    match (m.node n1).index, (m.node n2).index, (m.node o1).index with
    | some i1, some i2, some i3 =>
      .ok { i1, i2, i3, Ac, E44, E45, E55,
            a1 := p1.x - mid1.x, b1 := p1.y - mid1.y, c1 := p2.x - mid1.x, d1 := p2.y - mid1.y }
    | _, _, _ => .error .typeError
  | none, _ => .error .attributeError
  | _, none => .error .typeError

/-- The local variables of `interior_edge`, plate2d_add_k0s_edge_based.py:142-207. Line 160 is `x1, y1, y1 = n1.xyz`, so the `y1`
used in `b1` is the node's z coordinate: kept as in the code. -/
noncomputable def edgeIEnv (m : Mesh) (pn : Bool) (alpha : ℝ) (fromArea : Bool) (ed : Edge) (t1 t2 n1 n2 : ℕ) :
    Except Err (EdgeIEnv ℝ) :=
  match ed.other1, ed.other2, ed.Ac with
  | some o1, some o2, some Ac => do
    let mid1 := m.mid t1
    let mid2 := m.mid t2
    let p1 := (m.node n1).xyz; let p2 := (m.node n2).xyz
    let Ac1 := polyArea [mid1, p1, p2]
    let Ac2 := polyArea [p1, mid2, p2]
    let sp ← edgeIShear m pn Ac1 Ac2 Ac t1 t2 n1 n2 o1 o2
    let maxl ← edgeIMaxl m ed Ac fromArea
    let (E44, E45, E55) := edgeIModuli sp alpha maxl
    match (m.node n1).index, (m.node n2).index, (m.node o1).index, (m.node o2).index with
    | some i1, some i2, some i3, some i4 =>
      .ok { i1, i2, i3, i4, Ac, Ac1, Ac2, E44, E45, E55,
            a1 := p1.x - mid1.x, b1 := p1.z - mid1.y, c1 := p2.x - mid1.x, d1 := p2.y - mid1.y,
            a2 := mid2.x - p1.x, b2 := mid2.y - p1.y, c2 := p2.x - p1.x, d2 := p2.y - p1.y }
    | _, _, _, _ => .error .typeError
  | some _, some _, none => .error .typeError
  | _, _, _ => .error .attributeError

/-- Swap of `add_k0s` (edge based), plate2d_add_k0s_edge_based.py:358-362 -/
noncomputable def edgeOrient (m : Mesh) (ed : Edge) (t1 : ℕ) : ℕ × ℕ :=
  if Vec3.dot (Vec3.cross ((m.node ed.n2).xyz.sub (m.node ed.n1).xyz) ((m.mid t1).sub (m.node ed.n1).xyz)) zGlobal < 0
  then (ed.n2, ed.n1) else (ed.n1, ed.n2)

/-- One edge of `add_k0s` (edge based), plate2d_add_k0s_edge_based.py:357-368 -/
noncomputable def edgeSEdge (m : Mesh) (pn : Bool) (alpha : ℝ) (fromArea : Bool) (K : Mat) (k : Key) : Mat × Option Err :=
  let ed := m.edge k
  match ed.trias with
  | [] => (K, some .indexError)
  | [t1] =>
    let (n1, n2) := edgeOrient m ed t1
    match edgeBEnv m pn alpha fromArea ed t1 n1 n2 with
    | .error x => (K, some x)
    | .ok env => K.addAll (edgeBEntries env)
  | [t1, t2] =>
    let (n1, n2) := edgeOrient m ed t1
    match edgeIEnv m pn alpha fromArea ed t1 t2 n1 n2 with
    | .error x => (K, some x)
    | .ok env => K.addAll (edgeIEntries env)
  | _ => (K, some .notImplemented)

/-- `add_k0s` (cell based), plate2d_add_k0s_cell_based.py:10-177 -/
noncomputable def addK0sCell (K : Mat) (m : Mesh) (pn : Bool) (alpha : ℝ) (fromArea : Bool) : Mat × Option Err :=
  matLoop (cellSTria m pn alpha fromArea) K m.eids
/-- `add_k0s` without smoothing, plate2d_add_k0s_cell_based_no_smoothing.py:9-145 -/
noncomputable def addK0sCellNS (K : Mat) (m : Mesh) (pn : Bool) (alpha : ℝ) (fromArea : Bool) : Mat × Option Err :=
  matLoop (cellNSTria m pn alpha fromArea) K m.eids
/-- `add_k0s` (edge based), plate2d_add_k0s_edge_based.py:355-371 -/
noncomputable def addK0sEdge (K : Mat) (m : Mesh) (pn : Bool) (alpha : ℝ) (fromArea : Bool) : Mat × Option Err :=
  matLoop (edgeSEdge m pn alpha fromArea) K m.ekeys

/-- `add_k0s(k0, mesh, prop_from_node, method, alpha, maxl_from_area)`, plate2d_add_k0s.py:5-46 -/
noncomputable def addK0s (K : Mat) (m : Mesh) (pn : Bool) (method : String) (alpha : ℝ) (fromArea : Bool) : Mat × Option Err :=
  if method = "cell-based" then addK0sCell K m pn alpha fromArea
  else if method = "cell-based-no-smoothing" then addK0sCellNS K m pn alpha fromArea
  else if method = "edge-based" then addK0sEdge K m pn alpha fromArea
  else (K, some .valueError)

end Meshless
