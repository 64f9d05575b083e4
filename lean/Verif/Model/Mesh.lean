import Verif.Model.Utils

/-! The object graph of a mesh: meshless/espim/classes.py, the attributes added by meshless/espim/read_mesh.py to pyNastran
nodes and elements, and the two readers. References between Python objects are ids (node id, element id, edge key). -/

set_option autoImplicit false

namespace Meshless

/-- The laminate attributes read by the code: `prop.A`, `.B`, `.D` (plate2d_calc_k0.py:211-229), `.E`, `.h`, `.scf_k13`,
`.scf_k23` (plate2d_add_k0s_cell_based.py:64-76). -/
@[ext] structure Lam where
  (A B D : Fin 3 → Fin 3 → ℝ)
  E : Fin 2 → Fin 2 → ℝ
  (h k13 k23 : ℝ)

/-- Key of `mesh.edges`: a pair of node ids (read_mesh.py:51,128). -/
abbrev Key := ℕ × ℕ

/-- A node: pyNastran GRID with the attributes set in read_mesh.py:28-31,98-102.
`cp` is the map from the node's own coordinates to the basic system (identity for `cp=0`, as in read_mesh.py:98); pyNastran's
`get_position` returns `cp xyz`. `index = none` is the initial empty `set()` of read_mesh.py:30,101. -/
structure Node where
  xyz : Vec3
  cp : Vec3 → Vec3
  prop : Option Lam
  index : Option ℕ
  trias : Finset ℕ
  edges : Finset Key

/-- A triangle: pyNastran CTRIA3 with the attributes set in read_mesh.py:36-37,113-117; corners as node ids. -/
structure Tria where
  (n1 n2 n3 : ℕ)
  prop : Option Lam
  edges : List Key

/-- `IntegrationPoint`, meshless/espim/classes.py:1-16 -/
@[ext] structure IPt where
  tria : ℕ
  (n1 n2 n3 : ℕ)
  (f1 f2 f3 : ℝ)
  (nx ny nz : ℝ)
  le : ℝ
  xyz : Vec3

/-- `Edge`, meshless/espim/classes.py:19-30 (`nodes`, `node_ids` are determined by `n1`, `n2`, never reassigned). -/
@[ext] structure Edge where
  (n1 n2 : ℕ)
  trias : List ℕ
  sdomain : List Vec3
  ipts : List IPt
  Ac : Option ℝ
  (other1 other2 : Option ℕ)

/-- `Edge.__init__`, meshless/espim/classes.py:20-30 -/
def Edge.init (n1 n2 : ℕ) : Edge := ⟨n1, n2, [], [], [], none, none, none⟩

/-- The mesh: `mesh.nodes`, `mesh.elements`, `mesh.edges` as insertion-ordered key lists plus stores. The stores are total
functions; only keys in the lists are reachable.
read_mesh.py:26-61,91-137. -/
structure Mesh where
  nids : List ℕ
  node : ℕ → Node
  eids : List ℕ
  tria : ℕ → Tria
  ekeys : List Key
  edge : Key → Edge

namespace Mesh

/-- attribute assignment on a node object, read_mesh.py:28-31,52-53,59,99-102 -/
def updNode (m : Mesh) (i : ℕ) (f : Node → Node) : Mesh := { m with node := Function.update m.node i (f (m.node i)) }
/-- attribute assignment on a triangle object, read_mesh.py:36-37,47,56,116-117 -/
def updTria (m : Mesh) (i : ℕ) (f : Tria → Tria) : Mesh := { m with tria := Function.update m.tria i (f (m.tria i)) }
/-- attribute assignment on an edge object, read_mesh.py:50, plate2d_calc_k0.py:49-129 -/
def updEdge (m : Mesh) (k : Key) (f : Edge → Edge) : Mesh := { m with edge := Function.update m.edge k (f (m.edge k)) }

/-- Position of a node in the basic coordinate system: pyNastran `GRID.get_position`, used through meshless/utils.py:25 -/
def pos (m : Mesh) (i : ℕ) : Vec3 := (m.node i).cp (m.node i).xyz

/-- `getMid(tria)` = `tria.get_node_positions().mean(axis=0)`, meshless/utils.py:22-25 -/
noncomputable def mid (m : Mesh) (e : ℕ) : Vec3 :=
  let t := m.tria e
  let a := m.pos t.n1; let b := m.pos t.n2; let c := m.pos t.n3
  ⟨(a.x + b.x + c.x) / 3, (a.y + b.y + c.y) / 3, (a.z + b.z + c.z) / 3⟩

/-- `tria.node_ids` (pyNastran), used in plate2d_calc_k0.py:48,55,56 and read_mesh.py:58,135 -/
def triaNodes (m : Mesh) (e : ℕ) : List ℕ := [(m.tria e).n1, (m.tria e).n2, (m.tria e).n3]

/-- `tria.get_area()` (pyNastran: half the norm of the cross product of two side vectors in the basic system), used in
plate2d_add_k0s_cell_based.py:28 -/
noncomputable def triaArea (m : Mesh) (e : ℕ) : ℝ :=
  let t := m.tria e
  let a := m.pos t.n1; let b := m.pos t.n2; let c := m.pos t.n3
  (Vec3.cross (a.sub b) (a.sub c)).norm / 2

end Mesh

/-- `tuple(sorted([a, b]))`, inside pyNastran's `get_edge_ids`, called at read_mesh.py:45,123 -/
def sortPair (a b : ℕ) : Key := if a ≤ b then (a, b) else (b, a)

/-- `tria.get_edge_ids()` (pyNastran), used in read_mesh.py:45,123 -/
def Tria.edgeIds (t : Tria) : List Key := [sortPair t.n1 t.n2, sortPair t.n2 t.n3, sortPair t.n3 t.n1]

/-- `edges_ids = defaultdict(list)`, read_mesh.py:43,121: insertion-ordered keys and the list stored per key. -/
structure EdgeIds where
  keys : List Key
  val : Key → List ℕ

/-- `edges_ids[edge_id].append(tria)`, read_mesh.py:46,124 -/
def EdgeIds.append (d : EdgeIds) (k : Key) (e : ℕ) : EdgeIds :=
  ⟨if k ∈ d.keys then d.keys else d.keys ++ [k], Function.update d.val k (d.val k ++ [e])⟩

/-- The loop filling `edges_ids`, read_mesh.py:44-47,122-124 (`tria.nodes = tria.nodes_ref` only swaps ids for the node
objects, which are ids here). -/
def collectEdgeIds (tria : ℕ → Tria) (eids : List ℕ) : EdgeIds :=
  eids.foldl (fun d e => (tria e).edgeIds.foldl (fun d k => d.append k e) d) ⟨[], fun _ => []⟩

/-- Creation of one `Edge` object, read_mesh.py:49-53,126-130 -/
def addEdge (ids : EdgeIds) (m : Mesh) (k : Key) : Mesh :=
  let m := { m with
    ekeys := m.ekeys ++ [k]
    edge := Function.update m.edge k { Edge.init k.1 k.2 with trias := ids.val k } }
  let m := m.updNode k.1 fun n => { n with edges := insert k n.edges }
  m.updNode k.2 fun n => { n with edges := insert k n.edges }

/-- `for tria in edge.trias: tria.edges.append(edge)`, read_mesh.py:55-56,132-133 -/
def linkEdge (m : Mesh) (k : Key) : Mesh :=
  (m.edge k).trias.foldl (fun m e => m.updTria e fun t => { t with edges := t.edges ++ [k] }) m

/-- `for nid in tria.node_ids: mesh.nodes[nid].trias.add(tria.eid)`, read_mesh.py:58-59,135-136 -/
def linkNodes (m : Mesh) (e : ℕ) : Mesh :=
  (m.triaNodes e).foldl (fun m i => m.updNode i fun n => { n with trias := insert e n.trias }) m

/-- The part common to both readers (`edges = {}` to `mesh.edges = edges`), read_mesh.py:42-61,120-137, for a mesh whose nodes
and triangles are in place. KeyError if an edge end is not in `mesh.nodes` (the partly built mesh is then discarded). -/
def buildEdges (m : Mesh) : Except Err Mesh :=
  let ids := collectEdgeIds m.tria m.eids
  if ∀ k ∈ ids.keys, k.1 ∈ m.nids ∧ k.2 ∈ m.nids then
    let m := ids.keys.foldl (addEdge ids) m
    let m := m.ekeys.foldl linkEdge m
    .ok (m.eids.foldl linkNodes m)
  else .error .keyError

/-- A row of `points`: 2 or 3 coordinates (read_mesh.py:94-96; other lengths are outside the model). -/
inductive Pt
  | d2 (x y : ℝ)
  | d3 (x y z : ℝ)

/-- `if len(pt) == 2: pt = np.array([pt[0], pt[1], 0.])`, read_mesh.py:95-96 -/
def Pt.toVec : Pt → Vec3
  | .d2 x y => ⟨x, y, 0⟩
  | .d3 x y z => ⟨x, y, z⟩

/-- A fresh node object, read_mesh.py:98-102 (and 27-31 for nodes from a deck) -/
def freshNode (xyz : Vec3) (cp : Vec3 → Vec3) : Node := ⟨xyz, cp, none, none, ∅, ∅⟩

/-- The empty `BDF()` of read_mesh.py:91 -/
def emptyMesh : Mesh :=
  ⟨[], fun _ => freshNode ⟨0, 0, 0⟩ id, [], fun _ => ⟨0, 0, 0, none, []⟩, [], fun _ => Edge.init 0 0⟩

/-- The point loop, read_mesh.py:94-104: `nid` is incremented before use. -/
def addPoints (m : Mesh) : List Pt → ℕ → Mesh
  | [], _ => m
  | p :: ps, nid =>
    addPoints { m with nids := m.nids ++ [nid + 1]
                       node := Function.update m.node (nid + 1) (freshNode p.toVec id) } ps (nid + 1)

/-- The simplex loop, read_mesh.py:107-119; `nodes[i]` is node id `i+1` of `N` points, with Python's index rule. -/
def addTrias (N : ℕ) (m : Mesh) : List (ℤ × ℤ × ℤ) → ℕ → Except Err Mesh
  | [], _ => .ok m
  | (i1, i2, i3) :: ts, eid =>
    match pyIdx N i1, pyIdx N i2, pyIdx N i3 with
    | some a, some b, some c =>
      addTrias N { m with eids := m.eids ++ [eid + 1]
                          tria := Function.update m.tria (eid + 1) ⟨a + 1, b + 1, c + 1, none, []⟩ } ts (eid + 1)
    | _, _, _ => .error .indexError

/-- `read_delaunay(points, tri)`, read_mesh.py:66-139; `tris` is `tri.simplices`. -/
def readDelaunay (pts : List Pt) (tris : List (ℤ × ℤ × ℤ)) : Except Err Mesh :=
  match addTrias pts.length (addPoints emptyMesh pts 0) tris 0 with
  | .ok m => buildEdges m
  | .error e => .error e

/-- What `read_bdf` returns (read_mesh.py:26), an external parser: nodes and elements in dict order. An element is a CTRIA3 with
its corner ids or something else. -/
structure Deck where
  nodes : List (ℕ × Vec3 × (Vec3 → Vec3))
  elems : List (ℕ × Option (ℕ × ℕ × ℕ))

/-- Node attribute loop, read_mesh.py:27-31 -/
def deckNodes (m : Mesh) : List (ℕ × Vec3 × (Vec3 → Vec3)) → Mesh
  | [] => m
  | (i, x, c) :: l =>
    deckNodes { m with nids := m.nids ++ [i], node := Function.update m.node i (freshNode x c) } l

/-- Element loop with the CTRIA3 guard, read_mesh.py:33-41 -/
def deckElems (m : Mesh) : List (ℕ × Option (ℕ × ℕ × ℕ)) → Except Err Mesh
  | [] => .ok m
  | (e, some (a, b, c)) :: l =>
    deckElems { m with eids := m.eids ++ [e], tria := Function.update m.tria e ⟨a, b, c, none, []⟩ } l
  | (_, none) :: _ => .error .notImplemented

/-- `read_mesh(filepath)` after `read_bdf`, read_mesh.py:27-63 -/
def readMesh (d : Deck) : Except Err Mesh :=
  match deckElems (deckNodes emptyMesh d.nodes) d.elems with
  | .ok m => buildEdges m
  | .error e => .error e

end Meshless
