import Verif.Model.Mesh
import Verif.Model.Gen.K0
import Mathlib.Data.List.Sort

/-! meshless/espim/plate2d_calc_k0.py -/

set_option autoImplicit false

namespace Meshless

/-- The property check of one edge: `true` if some needed property is None. plate2d_calc_k0.py:34-42 -/
def edgeMissing (m : Mesh) (pn : Bool) (k : Key) : Bool :=
  if pn then [(m.edge k).n1, (m.edge k).n2].any fun i => (m.node i).prop.isNone
  else (m.edge k).trias.any fun e => (m.tria e).prop.isNone

/-- `IntegrationPoint(...)`, meshless/espim/classes.py:4-16; `n1 n2 n3` are node ids. -/
noncomputable def mkIPt (m : Mesh) (tria n1 n2 n3 : ℕ) (f1 f2 f3 : ℝ) (n : Vec3) (le : ℝ) : IPt :=
  ⟨tria, n1, n2, n3, f1, f2, f3, n.x, n.y, n.z, le,
    ((Vec3.smul f1 (m.node n1).xyz).add (Vec3.smul f2 (m.node n2).xyz)).add (Vec3.smul f3 (m.node n3).xyz)⟩

/-- `(set(tria.node_ids) - set(edge.node_ids)).pop()`, plate2d_calc_k0.py:48,55,56: KeyError (`none`) on the empty set. On meshes
from the readers at most one id remains, so the choice made by `pop` does not matter; the model takes the first. -/
def otherNode (m : Mesh) (e : ℕ) (ed : Edge) : Option ℕ :=
  ((m.triaNodes e).filter fun i => i ∉ [ed.n1, ed.n2]).head?

/-- Swap of plate2d_calc_k0.py:71-72 "to guarantee outward normals": the pair `(node1, node2)` after the test. -/
noncomputable def orient (m : Mesh) (mid1 : Vec3) (a b : ℕ) : ℕ × ℕ :=
  if Vec3.dot (Vec3.cross (mid1.sub (m.node b).xyz) ((m.node a).xyz.sub (m.node b).xyz)) zGlobal < 0 then (b, a) else (a, b)

/-- Normal of a segment: `unitvec(np.cross(tmpvec, ZGLOBAL))`, plate2d_calc_k0.py:75,83,91,98,105 -/
noncomputable def segNormal (t : Vec3) : Vec3 := unitvec (Vec3.cross t zGlobal)

/-- The first two integration points, plate2d_calc_k0.py:74-87 -/
noncomputable def iptsA (m : Mesh) (t1 : ℕ) (node1 node2 o1 : ℕ) : List IPt :=
  let mid1 := m.mid t1
  let v1 := (m.node node1).xyz.sub mid1
  let v2 := mid1.sub (m.node node2).xyz
  [mkIPt m t1 node1 node2 o1 (2/3) (1/6) (1/6) (segNormal v1) v1.norm,
   mkIPt m t1 node1 node2 o1 (1/6) (2/3) (1/6) (segNormal v2) v2.norm]

/-- The third integration point of a boundary edge, plate2d_calc_k0.py:90-95 -/
noncomputable def iptsB (m : Mesh) (t1 : ℕ) (node1 node2 o1 : ℕ) : List IPt :=
  let v := (m.node node2).xyz.sub (m.node node1).xyz
  [mkIPt m t1 node1 node2 o1 (1/2) (1/2) 0 (segNormal v) v.norm]

/-- The third and fourth integration points of an interior edge, plate2d_calc_k0.py:97-109 -/
noncomputable def iptsI (m : Mesh) (t2 : ℕ) (node1 node2 o2 : ℕ) : List IPt :=
  let mid2 := m.mid t2
  let v3 := (m.node node2).xyz.sub mid2
  let v4 := mid2.sub (m.node node1).xyz
  [mkIPt m t2 node1 node2 o2 (1/6) (2/3) (1/6) (segNormal v3) v3.norm,
   mkIPt m t2 node1 node2 o2 (2/3) (1/6) (1/6) (segNormal v4) v4.norm]

/-- Lines 111-114 of plate2d_calc_k0.py: store `sdomain`, `Ac`, `ipts` on the edge. -/
noncomputable def finishEdge (ed : Edge) (sd : List Vec3) (ipts : List IPt) : Edge :=
  { ed with sdomain := sd, Ac := some (polyArea sd), ipts := ipts }

/-- One iteration of the geometry loop, plate2d_calc_k0.py:44-114: the new state of the edge object and the exception raised. -/
noncomputable def geomEdge (m : Mesh) (ed : Edge) : Edge × Option Err :=
  match ed.trias with
  | [t1] =>
    match otherNode m t1 ed with
    | none => (ed, some .keyError)
    | some o1 =>
      if o1 ∈ m.nids then
        let ed := { ed with other1 := some o1, other2 := none }
        let mid1 := m.mid t1
        let (node1, node2) := orient m mid1 ed.n1 ed.n2
        let p1 := (m.node node1).xyz; let p2 := (m.node node2).xyz
        (finishEdge ed [p1, mid1, p2, p1] (iptsA m t1 node1 node2 o1 ++ iptsB m t1 node1 node2 o1), none)
      else (ed, some .keyError)
  | [t1, t2] =>
    match otherNode m t1 ed, otherNode m t2 ed with
    | some o1, some o2 =>
      if o1 ∈ m.nids then
        let ed := { ed with other1 := some o1 }
        if o2 ∈ m.nids then
          let ed := { ed with other2 := some o2 }
          let mid1 := m.mid t1
          let mid2 := m.mid t2
          let (node1, node2) := orient m mid1 ed.n1 ed.n2
          let p1 := (m.node node1).xyz; let p2 := (m.node node2).xyz
          (finishEdge ed [p1, mid1, p2, mid2, p1] (iptsA m t1 node1 node2 o1 ++ iptsI m t2 node1 node2 o2), none)
        else (ed, some .keyError)
      else (ed, some .keyError)
    | _, _ => (ed, some .keyError)
  | _ => (ed, some .notImplemented)

/-- The geometry loop over all edges, plate2d_calc_k0.py:44-114: stops at the first exception, keeping what was written. -/
noncomputable def geomPass (m : Mesh) : List Key → Mesh × Option Err
  | [] => (m, none)
  | k :: ks =>
    let (ed, err) := geomEdge m (m.edge k)
    let m' := { m with edge := Function.update m.edge k ed }
    match err with
    | some e => (m', some e)
    | none => geomPass m' ks

/-- `for i, node in enumerate(...): node.index = i`, plate2d_calc_k0.py:127-129. `sort_ind = np.arange(...)`, so the order is the
insertion order of `mesh.nodes`. -/
def numberNodes (m : Mesh) : List ℕ → ℕ → Mesh
  | [], _ => m
  | i :: is, c => numberNodes (m.updNode i fun n => { n with index := some c }) is (c + 1)

/-- `sorted(list(indices))` of the indices of all integration-point nodes, plate2d_calc_k0.py:153-158, plate2d_calc_kG.py:54-59.
`idx` is `fun nid => mesh.nodes[nid].index`. -/
def iptIndices (idx : ℕ → ℤ) (ipts : List IPt) : List ℤ :=
  ((ipts.flatMap fun p => [idx p.n1, idx p.n2, idx p.n3]).dedup).insertionSort (· ≤ ·)

/-- `indexpos = dict([[ind, i] for i, ind in enumerate(indices)])` and the lookup `indexpos[j]`: the last position wins
(plate2d_calc_k0.py:161, plate2d_calc_kG.py:62). -/
def indexPos (ix : List ℤ) (j : ℤ) : ℕ :=
  ix.length - 1 - ix.reverse.idxOf j

/-- Filling one weight row: `f = [0,0,0,0]; f[indexpos[n1.index]] = f1; ...`, plate2d_calc_k0.py:163-199 -/
noncomputable def weightRow (idx : ℕ → ℤ) (ix : List ℤ) (p : IPt) : List ℝ :=
  (((List.replicate 4 (0:ℝ)).set (indexPos ix (idx p.n1)) p.f1).set (indexPos ix (idx p.n2)) p.f2).set
    (indexPos ix (idx p.n3)) p.f3

/-- entry of a weight row, `f11 = f1[0]` …, plate2d_calc_k0.py:201-204 -/
noncomputable def wAt (r : List ℝ) (i : ℕ) : ℝ := r.getD i 0

/-- `c1*p1 + c2*p2 + c3*p3` of numpy matrices, plate2d_calc_k0.py:211-213 -/
noncomputable def mix3 {ι : Type} (c1 c2 c3 : ℝ) (P Q R : ι → ι → ℝ) : ι → ι → ℝ := fun i j => c1 * P i j + c2 * Q i j + c3 * R i j
/-- `c1*p1 + c2*p2 + c3*p3 + c4*p4` of numpy matrices, plate2d_calc_k0.py:216-218 -/
noncomputable def mix4 {ι : Type} (c1 c2 c3 c4 : ℝ) (P Q R S : ι → ι → ℝ) : ι → ι → ℝ :=
  fun i j => c1 * P i j + c2 * Q i j + c3 * R i j + c4 * S i j
/-- `(a*P + b*Q)/c` of numpy matrices, plate2d_calc_k0.py:227-229 -/
noncomputable def mixA {ι : Type} (a b c : ℝ) (P Q : ι → ι → ℝ) : ι → ι → ℝ := fun i j => (a * P i j + b * Q i j) / c

/-- A chosen property (`A`, `B` or `D`) averaged over an edge's smoothing domain, plate2d_calc_k0.py:206-229 and
plate2d_calc_kG.py:106-126. `sel` selects the matrix. AttributeError when a needed property (or other node) is None. -/
noncomputable def edgeProp (m : Mesh) (pn : Bool) (ed : Edge) (sel : Lam → Fin 3 → Fin 3 → ℝ) :
    Except Err (Fin 3 → Fin 3 → ℝ) :=
  let t1 := ed.trias.getD 0 0
  let t2 := ed.trias[1]?
  if pn then
    match ed.other1 with
    | none => .error .attributeError
    | some o1 =>
      match (m.node ed.n1).prop, (m.node ed.n2).prop, (m.node o1).prop with
      | some pn1, some pn2, some po1 =>
        match t2 with
        | none => .ok (mix3 (4/9) (4/9) (1/9) (sel pn1) (sel pn2) (sel po1))
        | some _ =>
          match ed.other2 with
          | none => .error .attributeError
          | some o2 =>
            match (m.node o2).prop with
            | some po2 => .ok (mix4 (5/12) (5/12) (1/12) (1/12) (sel pn1) (sel pn2) (sel po1) (sel po2))
            | none => .error .attributeError
      | _, _, _ => .error .attributeError
  else
    match (m.tria t1).prop with
    | none => .error .attributeError
    | some prop1 =>
      match t2 with
      | none => .ok (sel prop1)
      | some t2 =>
        match (m.tria t2).prop, ed.Ac with
        | some prop2, some Ac =>
          let Ac1 := polyArea [m.mid t1, (m.node ed.n2).xyz, (m.node ed.n1).xyz]
          let Ac2 := polyArea [m.mid t2, (m.node ed.n1).xyz, (m.node ed.n2).xyz]
          .ok (mixA Ac1 Ac2 Ac (sel prop1) (sel prop2))
        | none, _ => .error .attributeError
        | _, none => .error .typeError

/-- `node.index` as an integer; the initial `set()` cannot be used in arithmetic or sorting with integers (TypeError).
Set in read_mesh.py:30,101, used in plate2d_calc_k0.py:154-158. -/
def nodeIdx (m : Mesh) (i : ℕ) : ℤ := ((m.node i).index.getD 0 : ℕ)

/-- every node of the integration points has an integer index, needed by the sort of plate2d_calc_k0.py:154-158 -/
def iptsIndexed (m : Mesh) (ipts : List IPt) : Bool :=
  ipts.all fun p => (m.node p.n1).index.isSome && (m.node p.n2).index.isSome && (m.node p.n3).index.isSome

/-- The local variables for one edge before the `k0[...] +=` block, plate2d_calc_k0.py:138-250. -/
noncomputable def k0Env (m : Mesh) (pn : Bool) (ed : Edge) : Except Err (K0Env ℝ) :=
  if ed.trias = [] then .error .indexError
  else if 2 < ed.trias.length then .error .runtimeError
  else if !iptsIndexed m ed.ipts then .error .typeError
  else
    let ix0 := iptIndices (nodeIdx m) ed.ipts
    let ix := if ed.ipts.length = 3 then ix0 ++ [-1] else ix0
    match ix with
    | [i1, i2, i3, i4] =>
      match ed.ipts with
      | p1 :: p2 :: p3 :: rest =>
        let f1 := weightRow (nodeIdx m) ix p1
        let f2 := weightRow (nodeIdx m) ix p2
        let f3 := weightRow (nodeIdx m) ix p3
        -- lines 189-199: without a fourth point all its data are zero
        let f4 := match rest with | p4 :: _ => weightRow (nodeIdx m) ix p4 | [] => List.replicate 4 0
        let nx4 := match rest with | p4 :: _ => p4.nx | [] => 0
        let ny4 := match rest with | p4 :: _ => p4.ny | [] => 0
        let le4 := match rest with | p4 :: _ => p4.le | [] => 0
        match ed.Ac, edgeProp m pn ed Lam.A, edgeProp m pn ed Lam.B, edgeProp m pn ed Lam.D with
        | some Ac, .ok A, .ok B, .ok D =>
          .ok { i1, i2, i3, i4, Ac,
                A11 := A 0 0, A12 := A 0 1, A16 := A 0 2, A22 := A 1 1, A26 := A 1 2, A66 := A 2 2,
                B11 := B 0 0, B12 := B 0 1, B16 := B 0 2, B22 := B 1 1, B26 := B 1 2, B66 := B 2 2,
                D11 := D 0 0, D12 := D 0 1, D16 := D 0 2, D22 := D 1 1, D26 := D 1 2, D66 := D 2 2,
                f11 := wAt f1 0, f12 := wAt f1 1, f13 := wAt f1 2, f14 := wAt f1 3,
                f21 := wAt f2 0, f22 := wAt f2 1, f23 := wAt f2 2, f24 := wAt f2 3,
                f31 := wAt f3 0, f32 := wAt f3 1, f33 := wAt f3 2, f34 := wAt f3 3,
                f41 := wAt f4 0, f42 := wAt f4 1, f43 := wAt f4 2, f44 := wAt f4 3,
                le1 := p1.le, le2 := p2.le, le3 := p3.le, le4,
                nx1 := p1.nx, nx2 := p2.nx, nx3 := p3.nx, nx4,
                ny1 := p1.ny, ny2 := p2.ny, ny3 := p3.ny, ny4 }
        | _, .error e, _, _ => .error e
        | _, _, .error e, _ => .error e
        | _, _, _, .error e => .error e
        | none, _, _, _ => .error .typeError
      | _ => .error .indexError
    | _ => .error .valueError

/-- One iteration of the assembly loop, plate2d_calc_k0.py:137-508 -/
noncomputable def k0Edge (m : Mesh) (pn : Bool) (K : Mat) (k : Key) : Mat × Option Err :=
  match k0Env m pn (m.edge k) with
  | .error e => (K, some e)
  | .ok env => K.addAll (k0Entries env)

/-- A loop that modifies a matrix in place and stops at the first exception, 
`for edge in edges` / `for tria in trias`, plate2d_calc_k0.py:137-508, plate2d_calc_kG.py, plate2d_add_k0s_*.py -/
def matLoop {α : Type} (f : Mat → α → Mat × Option Err) (K : Mat) : List α → Mat × Option Err
  | [] => (K, none)
  | a :: as =>
    match f K a with
    | (K', none) => matLoop f K' as
    | (K', some e) => (K', some e)

/-- `calc_k0(mesh, prop_from_node)`, plate2d_calc_k0.py:11-511. Returns the mutated mesh and the matrix or the exception.
On a mesh without nodes `nodes_xyz.min(axis=0)` (line 124) raises ValueError. -/
noncomputable def calcK0 (m : Mesh) (pn : Bool) : Mesh × Except Err Mat :=
  if m.ekeys.any (edgeMissing m pn) then (m, .error .valueError)
  else
    match geomPass m m.ekeys with
    | (m1, some e) => (m1, .error e)
    | (m1, none) =>
      if m1.nids = [] then (m1, .error .valueError)
      else
        let m2 := numberNodes m1 m1.nids 0
        match matLoop (k0Edge m2 pn) (Mat.zeros (m2.nids.length * 5)) m2.ekeys with
        | (K, none) => (m2, .ok K)
        | (_, some e) => (m2, .error e)

end Meshless
