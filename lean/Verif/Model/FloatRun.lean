import Verif.Model.Float
import Verif.Model.KG
import Verif.Model.K0s
import Verif.Model.Interp

/-! The numerical functions of the library in rounded arithmetic: the same statements as in Model/Utils, Interp, K0, KG and K0s with every
`+`, `-`, `*`, `/`, `sqrt` rounded by `R`, left to right. Numbers are still reals: a float64 is the real number it stands for.
Simplification: numpy's inner products are taken as rounded products added from left to right (a BLAS with fused multiply-add rounds less). -/

set_option autoImplicit false

namespace Meshless
namespace Rounding
variable (R : Rounding)

/-! ### vectors -/

/-- numpy `a - b`, meshless/espim/plate2d_calc_k0.py:71,74 -/
def vsub (a b : Vec3) : Vec3 := ⟨R.sub a.x b.x, R.sub a.y b.y, R.sub a.z b.z⟩
/-- numpy `a + b`, meshless/espim/classes.py:5 -/
def vadd (a b : Vec3) : Vec3 := ⟨R.add a.x b.x, R.add a.y b.y, R.add a.z b.z⟩
/-- numpy `c * a`, meshless/espim/classes.py:5 -/
def vsmul (c : ℝ) (a : Vec3) : Vec3 := ⟨R.mul c a.x, R.mul c a.y, R.mul c a.z⟩
/-- `np.cross`, meshless/espim/plate2d_calc_k0.py:71,75,83,91,98,105 -/
def vcross (a b : Vec3) : Vec3 :=
  ⟨R.sub (R.mul a.y b.z) (R.mul a.z b.y), R.sub (R.mul a.z b.x) (R.mul a.x b.z), R.sub (R.mul a.x b.y) (R.mul a.y b.x)⟩
/-- `np.dot`, meshless/espim/plate2d_calc_k0.py:71 -/
def vdot (a b : Vec3) : ℝ := R.add (R.add (R.mul a.x b.x) (R.mul a.y b.y)) (R.mul a.z b.z)
/-- `np.linalg.norm(v)`, `np.sqrt((v**2).sum())`, `np.sum(v**2)**0.5`: meshless/utils.py:19, plate2d_calc_k0.py:78,85,93,100,107,
plate2d_add_k0s_cell_based.py:83 -/
noncomputable def vnorm (a : Vec3) : ℝ := R.sqrt (R.add (R.add (R.mul a.x a.x) (R.mul a.y a.y)) (R.mul a.z a.z))
/-- `unitvec(vector)`, meshless/utils.py:16-19 -/
noncomputable def unit (v : Vec3) : Vec3 := ⟨R.div v.x (R.vnorm v), R.div v.y (R.vnorm v), R.div v.z (R.vnorm v)⟩

/-! ### meshless/utils.py -/

/-- loop body of `area_of_polygon`, meshless/utils.py:11-12 -/
def areaStep (x y : List ℝ) (acc : Except Err ℝ) (k : ℕ) : Except Err ℝ :=
  match acc with
  | .error e => .error e
  | .ok area =>
    let i : ℤ := (k : ℤ) - 1
    match pyGet x i, pyGet y (i + 1), pyGet y (i - 1) with
    | some a, some b, some c => .ok (R.add area (R.mul a (R.sub b c)))
    | _, _, _ => .error .indexError

/-- `area_of_polygon(x, y)`, meshless/utils.py:7-13 -/
noncomputable def areaOfPolygon (x y : List ℝ) : Except Err ℝ :=
  match (List.range x.length).foldl (R.areaStep x y) (.ok 0) with
  | .ok area => .ok (R.div |area| 2)
  | .error e => .error e

/-- `area_of_polygon(tmp[:, 0], tmp[:, 1])`, plate2d_calc_k0.py:113,142,149, plate2d_add_k0s_cell_based.py:38,49,61 -/
noncomputable def polyArea (pts : List Vec3) : ℝ :=
  match R.areaOfPolygon (pts.map (·.x)) (pts.map (·.y)) with
  | .ok a => a
  | .error _ => 0

/-- `getMid(tria)`, meshless/utils.py:22-25: `mean(axis=0)` adds the rows and divides by their number. pyNastran's own arithmetic for
coordinate systems other than the basic one (`cp`) is taken as exact. -/
noncomputable def mid (m : Mesh) (e : ℕ) : Vec3 :=
  let t := m.tria e
  let a := m.pos t.n1; let b := m.pos t.n2; let c := m.pos t.n3
  ⟨R.div (R.add (R.add a.x b.x) c.x) 3, R.div (R.add (R.add a.y b.y) c.y) 3, R.div (R.add (R.add a.z b.z) c.z) 3⟩

/-- `tria.get_area()` (pyNastran), plate2d_add_k0s_cell_based.py:28 -/
noncomputable def triaArea (m : Mesh) (e : ℕ) : ℝ :=
  let t := m.tria e
  let a := m.pos t.n1; let b := m.pos t.n2; let c := m.pos t.n3
  R.div (R.vnorm (R.vcross (R.vsub a b) (R.vsub a c))) 2

/-! ### meshless/espim/plate2d_calc_k0.py -/

/-- `IntegrationPoint(...)`, meshless/espim/classes.py:4-16 -/
def mkIPt (m : Mesh) (tria n1 n2 n3 : ℕ) (f1 f2 f3 : ℝ) (n : Vec3) (le : ℝ) : IPt :=
  ⟨tria, n1, n2, n3, f1, f2, f3, n.x, n.y, n.z, le,
    R.vadd (R.vadd (R.vsmul f1 (m.node n1).xyz) (R.vsmul f2 (m.node n2).xyz)) (R.vsmul f3 (m.node n3).xyz)⟩

/-- the test of plate2d_calc_k0.py:71-72 on the computed dot product -/
noncomputable def orient (m : Mesh) (mid1 : Vec3) (a b : ℕ) : ℕ × ℕ :=
  if R.vdot (R.vcross (R.vsub mid1 (m.node b).xyz) (R.vsub (m.node a).xyz (m.node b).xyz)) zGlobal < 0 then (b, a) else (a, b)

/-- `unitvec(np.cross(tmpvec, ZGLOBAL))`, plate2d_calc_k0.py:75,83,91,98,105 -/
noncomputable def segNormal (t : Vec3) : Vec3 := R.unit (R.vcross t zGlobal)

/-- plate2d_calc_k0.py:74-87; the weights `2/3`, `1/6` are computed by Python -/
noncomputable def iptsA (m : Mesh) (t1 : ℕ) (node1 node2 o1 : ℕ) : List IPt :=
  let mid1 := R.mid m t1
  let v1 := R.vsub (m.node node1).xyz mid1
  let v2 := R.vsub mid1 (m.node node2).xyz
  [R.mkIPt m t1 node1 node2 o1 (R.fl (2/3)) (R.fl (1/6)) (R.fl (1/6)) (R.segNormal v1) (R.vnorm v1),
   R.mkIPt m t1 node1 node2 o1 (R.fl (1/6)) (R.fl (2/3)) (R.fl (1/6)) (R.segNormal v2) (R.vnorm v2)]

/-- plate2d_calc_k0.py:90-95 -/
noncomputable def iptsB (m : Mesh) (t1 : ℕ) (node1 node2 o1 : ℕ) : List IPt :=
  let v := R.vsub (m.node node2).xyz (m.node node1).xyz
  [R.mkIPt m t1 node1 node2 o1 (R.fl (1/2)) (R.fl (1/2)) 0 (R.segNormal v) (R.vnorm v)]

/-- plate2d_calc_k0.py:97-109 -/
noncomputable def iptsI (m : Mesh) (t2 : ℕ) (node1 node2 o2 : ℕ) : List IPt :=
  let mid2 := R.mid m t2
  let v3 := R.vsub (m.node node2).xyz mid2
  let v4 := R.vsub mid2 (m.node node1).xyz
  [R.mkIPt m t2 node1 node2 o2 (R.fl (1/6)) (R.fl (2/3)) (R.fl (1/6)) (R.segNormal v3) (R.vnorm v3),
   R.mkIPt m t2 node1 node2 o2 (R.fl (2/3)) (R.fl (1/6)) (R.fl (1/6)) (R.segNormal v4) (R.vnorm v4)]

/-- plate2d_calc_k0.py:111-114 -/
noncomputable def finishEdge (ed : Edge) (sd : List Vec3) (ipts : List IPt) : Edge :=
  { ed with sdomain := sd, Ac := some (R.polyArea sd), ipts := ipts }

/-- One iteration of the geometry loop, plate2d_calc_k0.py:44-114 -/
noncomputable def geomEdge (m : Mesh) (ed : Edge) : Edge × Option Err :=
  match ed.trias with
  | [t1] =>
    match otherNode m t1 ed with
    | none => (ed, some .keyError)
    | some o1 =>
      if o1 ∈ m.nids then
        let ed := { ed with other1 := some o1, other2 := none }
        let mid1 := R.mid m t1
        let (node1, node2) := R.orient m mid1 ed.n1 ed.n2
        let p1 := (m.node node1).xyz; let p2 := (m.node node2).xyz
        (R.finishEdge ed [p1, mid1, p2, p1] (R.iptsA m t1 node1 node2 o1 ++ R.iptsB m t1 node1 node2 o1), none)
      else (ed, some .keyError)
  | [t1, t2] =>
    match otherNode m t1 ed, otherNode m t2 ed with
    | some o1, some o2 =>
      if o1 ∈ m.nids then
        let ed := { ed with other1 := some o1 }
        if o2 ∈ m.nids then
          let ed := { ed with other2 := some o2 }
          let mid1 := R.mid m t1
          let mid2 := R.mid m t2
          let (node1, node2) := R.orient m mid1 ed.n1 ed.n2
          let p1 := (m.node node1).xyz; let p2 := (m.node node2).xyz
          (R.finishEdge ed [p1, mid1, p2, mid2, p1] (R.iptsA m t1 node1 node2 o1 ++ R.iptsI m t2 node1 node2 o2), none)
        else (ed, some .keyError)
      else (ed, some .keyError)
    | _, _ => (ed, some .keyError)
  | _ => (ed, some .notImplemented)

/-- The geometry loop, plate2d_calc_k0.py:44-114 -/
noncomputable def geomPass (m : Mesh) : List Key → Mesh × Option Err
  | [] => (m, none)
  | k :: ks =>
    let (ed, err) := R.geomEdge m (m.edge k)
    let m' := { m with edge := Function.update m.edge k ed }
    match err with
    | some e => (m', some e)
    | none => geomPass m' ks

/-- `c1*p1 + c2*p2 + c3*p3` of numpy matrices, plate2d_calc_k0.py:211-213 -/
def mix3 {ι : Type} (c1 c2 c3 : ℝ) (P Q S : ι → ι → ℝ) : ι → ι → ℝ :=
  fun i j => R.add (R.add (R.mul c1 (P i j)) (R.mul c2 (Q i j))) (R.mul c3 (S i j))
/-- `c1*p1 + c2*p2 + c3*p3 + c4*p4` of numpy matrices, plate2d_calc_k0.py:216-218 -/
def mix4 {ι : Type} (c1 c2 c3 c4 : ℝ) (P Q S T : ι → ι → ℝ) : ι → ι → ℝ :=
  fun i j => R.add (R.add (R.add (R.mul c1 (P i j)) (R.mul c2 (Q i j))) (R.mul c3 (S i j))) (R.mul c4 (T i j))
/-- `(a*P + b*Q)/c` of numpy matrices, plate2d_calc_k0.py:227-229 -/
noncomputable def mixA {ι : Type} (a b c : ℝ) (P Q : ι → ι → ℝ) : ι → ι → ℝ :=
  fun i j => R.div (R.add (R.mul a (P i j)) (R.mul b (Q i j))) c

/-- plate2d_calc_k0.py:206-229 and plate2d_calc_kG.py:106-126; the weights are computed by Python -/
noncomputable def edgeProp (m : Mesh) (pn : Bool) (ed : Edge) (sel : Lam → Fin 3 → Fin 3 → ℝ) :
    Except Err (Fin 3 → Fin 3 → ℝ) :=
  let t1 := ed.trias.getD 0 0
  let t2 := ed.trias[1]?
  if pn then
    match ed.other1 with
    | none => .error .attributeError
    | some o1 =>
      match (m.node ed.n1).prop, (m.node ed.n2).prop, (m.node o1).prop with
      | some pn1, some pn2, some po1 =>
        match t2 with
        | none => .ok (R.mix3 (R.fl (4/9)) (R.fl (4/9)) (R.fl (1/9)) (sel pn1) (sel pn2) (sel po1))
        | some _ =>
          match ed.other2 with
          | none => .error .attributeError
          | some o2 =>
            match (m.node o2).prop with
            | some po2 => .ok (R.mix4 (R.fl (5/12)) (R.fl (5/12)) (R.fl (1/12)) (R.fl (1/12)) (sel pn1) (sel pn2) (sel po1) (sel po2))
            | none => .error .attributeError
      | _, _, _ => .error .attributeError
  else
    match (m.tria t1).prop with
    | none => .error .attributeError
    | some prop1 =>
      match t2 with
      | none => .ok (sel prop1)
      | some t2 =>
        match (m.tria t2).prop, ed.Ac with
        | some prop2, some Ac =>
          let Ac1 := R.polyArea [R.mid m t1, (m.node ed.n2).xyz, (m.node ed.n1).xyz]
          let Ac2 := R.polyArea [R.mid m t2, (m.node ed.n1).xyz, (m.node ed.n2).xyz]
          .ok (R.mixA Ac1 Ac2 Ac (sel prop1) (sel prop2))
        | none, _ => .error .attributeError
        | _, none => .error .typeError

/-- The local variables for one edge before the `k0[...] +=` block, plate2d_calc_k0.py:138-250 -/
noncomputable def k0Env (m : Mesh) (pn : Bool) (ed : Edge) : Except Err (K0Env ℝ) :=
  if ed.trias = [] then .error .indexError
  else if 2 < ed.trias.length then .error .runtimeError
  else if !iptsIndexed m ed.ipts then .error .typeError
  else
    let ix0 := iptIndices (nodeIdx m) ed.ipts
    let ix := if ed.ipts.length = 3 then ix0 ++ [-1] else ix0
    match ix with
    | [i1, i2, i3, i4] =>
      match ed.ipts with
      | p1 :: p2 :: p3 :: rest =>
        let f1 := weightRow (nodeIdx m) ix p1
        let f2 := weightRow (nodeIdx m) ix p2
        let f3 := weightRow (nodeIdx m) ix p3
        let f4 := match rest with | p4 :: _ => weightRow (nodeIdx m) ix p4 | [] => List.replicate 4 0
        let nx4 := match rest with | p4 :: _ => p4.nx | [] => 0
        let ny4 := match rest with | p4 :: _ => p4.ny | [] => 0
        let le4 := match rest with | p4 :: _ => p4.le | [] => 0
        match ed.Ac, R.edgeProp m pn ed Lam.A, R.edgeProp m pn ed Lam.B, R.edgeProp m pn ed Lam.D with
        | some Ac, .ok A, .ok B, .ok D =>
          .ok { i1, i2, i3, i4, Ac,
                A11 := A 0 0, A12 := A 0 1, A16 := A 0 2, A22 := A 1 1, A26 := A 1 2, A66 := A 2 2,
                B11 := B 0 0, B12 := B 0 1, B16 := B 0 2, B22 := B 1 1, B26 := B 1 2, B66 := B 2 2,
                D11 := D 0 0, D12 := D 0 1, D16 := D 0 2, D22 := D 1 1, D26 := D 1 2, D66 := D 2 2,
                f11 := wAt f1 0, f12 := wAt f1 1, f13 := wAt f1 2, f14 := wAt f1 3,
                f21 := wAt f2 0, f22 := wAt f2 1, f23 := wAt f2 2, f24 := wAt f2 3,
                f31 := wAt f3 0, f32 := wAt f3 1, f33 := wAt f3 2, f34 := wAt f3 3,
                f41 := wAt f4 0, f42 := wAt f4 1, f43 := wAt f4 2, f44 := wAt f4 3,
                le1 := p1.le, le2 := p2.le, le3 := p3.le, le4,
                nx1 := p1.nx, nx2 := p2.nx, nx3 := p3.nx, nx4,
                ny1 := p1.ny, ny2 := p2.ny, ny3 := p3.ny, ny4 }
        | _, .error e, _, _ => .error e
        | _, _, .error e, _ => .error e
        | _, _, _, .error e => .error e
        | none, _, _, _ => .error .typeError
      | _ => .error .indexError
    | _ => .error .valueError

/-- `k[r, c] += v` once `r`, `c` are valid positions, plate2d_calc_k0.py:253-508 and the other assembly routines -/
def bump (M : Mat) (r c : ℕ) (v : ℝ) : Mat :=
  ⟨M.dim, fun i j => if i = r ∧ j = c then R.add (M.get i j) v else M.get i j⟩

/-- `k[r, c] += v` with Python index rules, e.g. meshless/espim/plate2d_calc_k0.py:253 -/
def addAt (M : Mat) (r c : ℤ) (v : ℝ) : Except Err Mat :=
  match pyIdx M.dim r, pyIdx M.dim c with
  | some i, some j => .ok (R.bump M i j v)
  | _, _ => .error .indexError

/-- A straight-line block of `k[r, c] += v` statements, meshless/espim/plate2d_calc_k0.py:253-508 and the other files. The values come from the
generated formulas evaluated in rounded arithmetic. -/
def addAll (M : Mat) : List (ℤ × ℤ × Fl R) → Mat × Option Err
  | [] => (M, none)
  | (r, c, v) :: es =>
    match R.addAt M r c v with
    | .ok M' => addAll M' es
    | .error e => (M, some e)

/-- One iteration of the assembly loop, plate2d_calc_k0.py:137-508 -/
noncomputable def k0Edge (m : Mesh) (pn : Bool) (K : Mat) (k : Key) : Mat × Option Err :=
  match R.k0Env m pn (m.edge k) with
  | .error e => (K, some e)
  | .ok env => R.addAll K (k0Entries (K := Fl R) env)

/-- `calc_k0(mesh, prop_from_node)`, plate2d_calc_k0.py:11-511 -/
noncomputable def calcK0 (m : Mesh) (pn : Bool) : Mesh × Except Err Mat :=
  if m.ekeys.any (edgeMissing m pn) then (m, .error .valueError)
  else
    match R.geomPass m m.ekeys with
    | (m1, some e) => (m1, .error e)
    | (m1, none) =>
      if m1.nids = [] then (m1, .error .valueError)
      else
        let m2 := numberNodes m1 m1.nids 0
        match matLoop (R.k0Edge m2 pn) (Mat.zeros (m2.nids.length * 5)) m2.ekeys with
        | (K, none) => (m2, .ok K)
        | (_, some e) => (m2, .error e)

/-! ### meshless/espim/plate2d_calc_kG.py -/

/-- a sum of four products, plate2d_calc_kG.py:134-140,142-154 -/
def sum4 (a b c d : ℝ) : ℝ := R.add (R.add (R.add a b) c) d

/-- plate2d_calc_kG.py:134-140 -/
noncomputable def dcAt (f : List ℝ) (d1 d2 d3 d4 : List ℝ) (r : ℕ) : ℝ :=
  R.sum4 (R.mul (wAt f 0) (d1.getD r 0)) (R.mul (wAt f 1) (d2.getD r 0)) (R.mul (wAt f 2) (d3.getD r 0)) (R.mul (wAt f 3) (d4.getD r 0))

/-- `np.dot(A, em)`, plate2d_calc_kG.py:156 -/
def dot3 (A : Fin 3 → Fin 3 → ℝ) (e : Fin 3 → ℝ) (i : Fin 3) : ℝ :=
  R.add (R.add (R.mul (A i 0) (e 0)) (R.mul (A i 1) (e 1))) (R.mul (A i 2) (e 2))

/-- The local variables of one edge before the `kG[...] +=` block, plate2d_calc_kG.py:39-156 -/
noncomputable def kGEnv (m : Mesh) (d : List ℝ) (pn : Bool) (ed : Edge) : Except Err (KGEnv ℝ) :=
  if ed.trias = [] then .error .indexError
  else if 2 < ed.trias.length then .error .runtimeError
  else if !iptsIndexed m ed.ipts then .error .typeError
  else
    let ix0 := iptIndices (nodeIdx m) ed.ipts
    let ix := if ed.ipts.length = 3 then ix0 ++ [0] else ix0
    match ix with
    | [i1, i2, i3, i4] =>
      match ed.ipts with
      | p1 :: p2 :: p3 :: rest =>
        let f1 := weightRow (nodeIdx m) ix p1
        let f2 := weightRow (nodeIdx m) ix p2
        let f3 := weightRow (nodeIdx m) ix p3
        let f4 := match rest with | p4 :: _ => weightRow (nodeIdx m) ix p4 | [] => List.replicate 4 0
        let nx4 := match rest with | p4 :: _ => p4.nx | [] => 0
        let ny4 := match rest with | p4 :: _ => p4.ny | [] => 0
        let le4 := match rest with | p4 :: _ => p4.le | [] => 0
        match ed.Ac, R.edgeProp m pn ed Lam.A, R.edgeProp m pn ed Lam.B with
        | some Ac, .ok A, .ok B =>
          let d1 := dSlice d i1; let d2 := dSlice d i2; let d3 := dSlice d i3; let d4 := dSlice d i4
          if d1.length = 5 ∧ d2.length = 5 ∧ d3.length = 5 ∧ d4.length = 5 then
            let c := fun (f : List ℝ) r => R.dcAt f d1 d2 d3 d4 r
            let sx := fun r => R.sum4 (R.mul (R.mul p1.le p1.nx) (c f1 r)) (R.mul (R.mul p2.le p2.nx) (c f2 r))
              (R.mul (R.mul p3.le p3.nx) (c f3 r)) (R.mul (R.mul le4 nx4) (c f4 r))
            let sy := fun r => R.sum4 (R.mul (R.mul p1.le p1.ny) (c f1 r)) (R.mul (R.mul p2.le p2.ny) (c f2 r))
              (R.mul (R.mul p3.le p3.ny) (c f3 r)) (R.mul (R.mul le4 ny4) (c f4 r))
            let sxy := fun r s => R.sum4
              (R.mul p1.le (R.add (R.mul p1.ny (c f1 r)) (R.mul p1.nx (c f1 s)))) (R.mul p2.le (R.add (R.mul p2.ny (c f2 r)) (R.mul p2.nx (c f2 s))))
              (R.mul p3.le (R.add (R.mul p3.ny (c f3 r)) (R.mul p3.nx (c f3 s)))) (R.mul le4 (R.add (R.mul ny4 (c f4 r)) (R.mul nx4 (c f4 s))))
            let em : Fin 3 → ℝ := ![R.mul (R.div 1 Ac) (sx 0), R.mul (R.div 1 Ac) (sy 1), R.mul (R.div 1 Ac) (sxy 0 1)]
            let eb : Fin 3 → ℝ := ![R.mul (R.div 1 Ac) (sx 3), R.mul (R.div 1 Ac) (sy 4), R.mul (R.div 1 Ac) (sxy 3 4)]
            let N := fun i => R.add (R.dot3 A em i) (R.dot3 B eb i)
            .ok { i1, i2, i3, i4, Ac, Nxx := N 0, Nyy := N 1, Nxy := N 2
                  f11 := wAt f1 0, f12 := wAt f1 1, f13 := wAt f1 2, f14 := wAt f1 3,
                  f21 := wAt f2 0, f22 := wAt f2 1, f23 := wAt f2 2, f24 := wAt f2 3,
                  f31 := wAt f3 0, f32 := wAt f3 1, f33 := wAt f3 2, f34 := wAt f3 3,
                  f41 := wAt f4 0, f42 := wAt f4 1, f43 := wAt f4 2, f44 := wAt f4 3,
                  le1 := p1.le, le2 := p2.le, le3 := p3.le, le4,
                  nx1 := p1.nx, nx2 := p2.nx, nx3 := p3.nx, nx4,
                  ny1 := p1.ny, ny2 := p2.ny, ny3 := p3.ny, ny4 }
          else if d1.length = d2.length ∧ d1.length = d3.length ∧ d1.length = d4.length then .error .indexError
          else .error .valueError
        | _, .error e, _ => .error e
        | _, _, .error e => .error e
        | none, _, _ => .error .typeError
      | _ => .error .indexError
    | _ => .error .valueError

/-- One iteration of the loop, plate2d_calc_kG.py:38-174 -/
noncomputable def kGEdge (m : Mesh) (d : List ℝ) (pn : Bool) (K : Mat) (k : Key) : Mat × Option Err :=
  match R.kGEnv m d pn (m.edge k) with
  | .error e => (K, some e)
  | .ok env => R.addAll K (kGEntries (K := Fl R) env)

/-- `calc_kG(d, mesh, prop_from_node)`, plate2d_calc_kG.py:9-177 -/
noncomputable def calcKG (m : Mesh) (d : List ℝ) (pn : Bool) : Except Err Mat :=
  match matLoop (R.kGEdge m d pn) (Mat.zeros (d.length / 5 * 5)) m.ekeys with
  | (K, none) => .ok K
  | (_, some e) => .error e

/-! ### meshless/espim/plate2d_add_k0s.py -/

/-- plate2d_add_k0s_cell_based.py:64-70 (1/3 each), plate2d_add_k0s_edge_based.py:32-38 (4/9, 4/9, 1/9) -/
def shear3 (c1 c2 c3 : ℝ) (p q r : Lam) : ShearProp :=
  ⟨R.add (R.add (R.mul c1 p.k13) (R.mul c2 q.k13)) (R.mul c3 r.k13), R.add (R.add (R.mul c1 p.k23) (R.mul c2 q.k23)) (R.mul c3 r.k23),
    R.add (R.add (R.mul c1 p.h) (R.mul c2 q.h)) (R.mul c3 r.h), R.mix3 c1 c2 c3 p.E q.E r.E⟩

/-- plate2d_add_k0s_edge_based.py:183-186 -/
noncomputable def shear4 (p q r s : Lam) : ShearProp :=
  let f := fun a b c d => R.sum4 (R.mul (R.fl (5/12)) a) (R.mul (R.fl (5/12)) b) (R.mul (R.fl (1/12)) c) (R.mul (R.fl (1/12)) d)
  ⟨f p.k13 q.k13 r.k13 s.k13, f p.k23 q.k23 r.k23 s.k23, f p.h q.h r.h s.h,
    R.mix4 (R.fl (5/12)) (R.fl (5/12)) (R.fl (1/12)) (R.fl (1/12)) p.E q.E r.E s.E⟩

/-- plate2d_add_k0s_edge_based.py:191-194 -/
noncomputable def shearA (Ac1 Ac2 Ac : ℝ) (p q : Lam) : ShearProp :=
  let f := fun a b => R.div (R.add (R.mul Ac1 a) (R.mul Ac2 b)) Ac
  ⟨f p.k13 q.k13, f p.k23 q.k23, f p.h q.h, R.mixA Ac1 Ac2 Ac p.E q.E⟩

/-- plate2d_add_k0s_cell_based.py:63-75, plate2d_add_k0s_cell_based_no_smoothing.py:30-42 -/
noncomputable def cellShear (m : Mesh) (pn : Bool) (e n1 n2 n3 : ℕ) : Except Err ShearProp :=
  if pn then
    match (m.node n1).prop, (m.node n2).prop, (m.node n3).prop with
    | some p, some q, some r => .ok (R.shear3 (R.fl (1/3)) (R.fl (1/3)) (R.fl (1/3)) p q r)
    | _, _, _ => .error .attributeError
  else
    match (m.tria e).prop with
    | some p => .ok p.shear
    | none => .error .attributeError

/-- plate2d_add_k0s_cell_based.py:83 -/
noncomputable def edgeLen (m : Mesh) (k : Key) : ℝ := R.vnorm (R.vsub (m.node (m.edge k).n1).xyz (m.node (m.edge k).n2).xyz)

/-- plate2d_add_k0s_cell_based.py:80-83, plate2d_add_k0s_cell_based_no_smoothing.py:48-51 -/
noncomputable def cellMaxl (m : Mesh) (e : ℕ) (Ac : ℝ) (fromArea : Bool) : Except Err ℝ :=
  if fromArea then .ok (R.sqrt Ac)
  else match pyMax ((m.tria e).edges.map (R.edgeLen m)) with
    | some a => .ok a
    | none => .error .valueError

/-- plate2d_add_k0s_cell_based.py:85-86 -/
noncomputable def stab (alpha maxl h : ℝ) : ℝ := R.div 1 (R.add 1 (R.div (R.mul alpha (R.mul maxl maxl)) (R.mul h h)))

/-- plate2d_add_k0s_cell_based.py:20-24 -/
noncomputable def cellOrient (m : Mesh) (e : ℕ) : ℕ × ℕ × ℕ :=
  let t := m.tria e
  if R.vdot (R.vcross (R.vsub (m.node t.n1).xyz (R.mid m e)) (R.vsub (m.node t.n2).xyz (R.mid m e))) zGlobal < 0
  then (t.n2, t.n1, t.n3) else (t.n1, t.n2, t.n3)

/-- plate2d_add_k0s_cell_based.py:19-92 -/
noncomputable def cellSEnv (m : Mesh) (pn : Bool) (alpha : ℝ) (fromArea : Bool) (e : ℕ) : Except Err (CellSEnv ℝ) := do
  let (n1, n2, n3) := R.cellOrient m e
  let mid := R.mid m e
  let p1 := (m.node n1).xyz; let p2 := (m.node n2).xyz; let p3 := (m.node n3).xyz
  let Ac := R.triaArea m e
  let sp ← R.cellShear m pn e n1 n2 n3
  let maxl ← R.cellMaxl m e Ac fromArea
  match (m.node n1).index, (m.node n2).index, (m.node n3).index with
  | some i1, some i2, some i3 =>
    .ok { i1, i2, i3, Ac,
          a1 := R.sub p1.x mid.x, b1 := R.sub p1.y mid.y, c1 := R.sub p2.x mid.x, d1 := R.sub p2.y mid.y, Ac1 := R.polyArea [mid, p1, p2],
          a2 := R.sub p2.x mid.x, b2 := R.sub p2.y mid.y, c2 := R.sub p3.x mid.x, d2 := R.sub p3.y mid.y, Ac2 := R.polyArea [mid, p2, p3],
          a3 := R.sub p3.x mid.x, b3 := R.sub p3.y mid.y, c3 := R.sub p1.x mid.x, d3 := R.sub p1.y mid.y, Ac3 := R.polyArea [mid, p3, p1],
          E44 := R.mul (R.stab alpha maxl sp.h) (R.mul sp.k23 (sp.E 0 0)), E45 := 0,
          E55 := R.mul (R.stab alpha maxl sp.h) (R.mul sp.k13 (sp.E 1 1)) }
  | _, _, _ => .error .typeError

/-- plate2d_add_k0s_cell_based_no_smoothing.py:15-18 -/
noncomputable def cellNSOrient (m : Mesh) (e : ℕ) : ℕ × ℕ × ℕ :=
  let t := m.tria e
  let p1 := (m.node t.n1).xyz
  if R.vdot (R.vcross (R.vsub (m.node t.n2).xyz p1) (R.vsub (m.node t.n3).xyz p1)) zGlobal < 0
  then (t.n2, t.n1, t.n3) else (t.n1, t.n2, t.n3)

/-- plate2d_add_k0s_cell_based_no_smoothing.py:15-60 -/
noncomputable def cellNSEnv (m : Mesh) (pn : Bool) (alpha : ℝ) (fromArea : Bool) (e : ℕ) : Except Err (CellNSEnv ℝ) := do
  let (n1, n2, n3) := R.cellNSOrient m e
  let p1 := (m.node n1).xyz; let p2 := (m.node n2).xyz; let p3 := (m.node n3).xyz
  let Ac := R.triaArea m e
  let sp ← R.cellShear m pn e n1 n2 n3
  let maxl ← R.cellMaxl m e Ac fromArea
  match (m.node n1).index, (m.node n2).index, (m.node n3).index with
  | some i1, some i2, some i3 =>
    .ok { i1, i2, i3, Ac,
          a1 := R.sub p2.x p1.x, b1 := R.sub p2.y p1.y, c1 := R.sub p3.x p1.x, d1 := R.sub p3.y p1.y,
          E44 := R.mul (R.stab alpha maxl sp.h) (R.mul sp.k23 (sp.E 0 0)), E45 := 0,
          E55 := R.mul (R.stab alpha maxl sp.h) (R.mul sp.k13 (sp.E 1 1)) }
  | _, _, _ => .error .typeError

/-- plate2d_add_k0s_cell_based.py:13-174 -/
noncomputable def cellSTria (m : Mesh) (pn : Bool) (alpha : ℝ) (fromArea : Bool) (K : Mat) (e : ℕ) : Mat × Option Err :=
  match R.cellSEnv m pn alpha fromArea e with
  | .error x => (K, some x)
  | .ok env => R.addAll K (cellSEntries (K := Fl R) env)

/-- plate2d_add_k0s_cell_based_no_smoothing.py:12-142 -/
noncomputable def cellNSTria (m : Mesh) (pn : Bool) (alpha : ℝ) (fromArea : Bool) (K : Mat) (e : ℕ) : Mat × Option Err :=
  match R.cellNSEnv m pn alpha fromArea e with
  | .error x => (K, some x)
  | .ok env => R.addAll K (cellNSEntries (K := Fl R) env)

/-- plate2d_add_k0s_edge_based.py:49-52 -/
noncomputable def edgeBMaxl (ed : Edge) (Ac : ℝ) (fromArea : Bool) : Except Err ℝ :=
  if fromArea then .ok (R.sqrt Ac)
  else match pyMax (ed.ipts.map (·.le)) with
    | some a => .ok a
    | none => .error .valueError

/-- plate2d_add_k0s_edge_based.py:200-203 -/
noncomputable def edgeIMaxl (m : Mesh) (ed : Edge) (Ac : ℝ) (fromArea : Bool) : Except Err ℝ :=
  if fromArea then .ok (R.sqrt Ac)
  else match pyMax (ed.ipts.map (·.le)) with
    | some a => .ok (max a (R.vnorm (R.vsub (m.node ed.n1).xyz (m.node ed.n2).xyz)))
    | none => .error .valueError

/-- plate2d_add_k0s_edge_based.py:31-43 -/
noncomputable def edgeBShear (m : Mesh) (pn : Bool) (t1 n1 n2 o1 : ℕ) : Except Err ShearProp :=
  if pn then
    match (m.node n1).prop, (m.node n2).prop, (m.node o1).prop with
    | some p, some q, some r => .ok (R.shear3 (R.fl (4/9)) (R.fl (4/9)) (R.fl (1/9)) p q r)
    | _, _, _ => .error .attributeError
  else
    match (m.tria t1).prop with
    | some p => .ok p.shear
    | none => .error .attributeError

/-- plate2d_add_k0s_edge_based.py:178-194 -/
noncomputable def edgeIShear (m : Mesh) (pn : Bool) (Ac1 Ac2 Ac : ℝ) (t1 t2 n1 n2 o1 o2 : ℕ) : Except Err ShearProp :=
  if pn then
    match (m.node n1).prop, (m.node n2).prop, (m.node o1).prop, (m.node o2).prop with
    | some p, some q, some r, some s => .ok (R.shear4 p q r s)
    | _, _, _, _ => .error .attributeError
  else
    match (m.tria t1).prop, (m.tria t2).prop with
    | some p, some q => .ok (R.shearA Ac1 Ac2 Ac p q)
    | _, _ => .error .attributeError

/-- plate2d_add_k0s_edge_based.py:45-57 -/
noncomputable def edgeBModuli (sp : ShearProp) (alpha maxl : ℝ) : ℝ × ℝ × ℝ :=
  (R.mul (R.stab alpha maxl sp.h) (R.mul sp.k23 (sp.E 0 0)), 0, R.mul (R.stab alpha maxl sp.h) (R.mul sp.k13 (sp.E 1 1)))

/-- plate2d_add_k0s_edge_based.py:196-207 -/
noncomputable def edgeIModuli (sp : ShearProp) (alpha maxl : ℝ) : ℝ × ℝ × ℝ :=
  let c := R.div (R.mul sp.h sp.h) (R.add (R.mul sp.h sp.h) (R.mul alpha (R.mul maxl maxl)))
  (R.mul c (R.mul sp.k13 (sp.E 0 0)), R.mul c (R.mul (min sp.k13 sp.k23) (sp.E 0 1)), R.mul c (R.mul sp.k23 (sp.E 1 1)))

/-- plate2d_add_k0s_edge_based.py:12-57 -/
noncomputable def edgeBEnv (m : Mesh) (pn : Bool) (alpha : ℝ) (fromArea : Bool) (ed : Edge) (t1 n1 n2 : ℕ) :
    Except Err (EdgeBEnv ℝ) :=
  match ed.other1, ed.Ac with
  | some o1, some Ac => do
    let mid1 := R.mid m t1
    let p1 := (m.node n1).xyz; let p2 := (m.node n2).xyz
    let sp ← R.edgeBShear m pn t1 n1 n2 o1
    let maxl ← R.edgeBMaxl ed Ac fromArea
    let (E44, E45, E55) := R.edgeBModuli sp alpha maxl
    match (m.node n1).index, (m.node n2).index, (m.node o1).index with
    | some i1, some i2, some i3 =>
      .ok { i1, i2, i3, Ac, E44, E45, E55,
            a1 := R.sub p1.x mid1.x, b1 := R.sub p1.y mid1.y, c1 := R.sub p2.x mid1.x, d1 := R.sub p2.y mid1.y }
    | _, _, _ => .error .typeError
  | none, _ => .error .attributeError
  | _, none => .error .typeError

/-- plate2d_add_k0s_edge_based.py:142-207, with the `y1` of line 160 as in the code -/
noncomputable def edgeIEnv (m : Mesh) (pn : Bool) (alpha : ℝ) (fromArea : Bool) (ed : Edge) (t1 t2 n1 n2 : ℕ) :
    Except Err (EdgeIEnv ℝ) :=
  match ed.other1, ed.other2, ed.Ac with
  | some o1, some o2, some Ac => do
    let mid1 := R.mid m t1
    let mid2 := R.mid m t2
    let p1 := (m.node n1).xyz; let p2 := (m.node n2).xyz
    let Ac1 := R.polyArea [mid1, p1, p2]
    let Ac2 := R.polyArea [p1, mid2, p2]
    let sp ← R.edgeIShear m pn Ac1 Ac2 Ac t1 t2 n1 n2 o1 o2
    let maxl ← R.edgeIMaxl m ed Ac fromArea
    let (E44, E45, E55) := R.edgeIModuli sp alpha maxl
    match (m.node n1).index, (m.node n2).index, (m.node o1).index, (m.node o2).index with
    | some i1, some i2, some i3, some i4 =>
      .ok { i1, i2, i3, i4, Ac, Ac1, Ac2, E44, E45, E55,
            a1 := R.sub p1.x mid1.x, b1 := R.sub p1.z mid1.y, c1 := R.sub p2.x mid1.x, d1 := R.sub p2.y mid1.y,
            a2 := R.sub mid2.x p1.x, b2 := R.sub mid2.y p1.y, c2 := R.sub p2.x p1.x, d2 := R.sub p2.y p1.y }
    | _, _, _, _ => .error .typeError
  | some _, some _, none => .error .typeError
  | _, _, _ => .error .attributeError

/-- plate2d_add_k0s_edge_based.py:358-362 -/
noncomputable def edgeOrient (m : Mesh) (ed : Edge) (t1 : ℕ) : ℕ × ℕ :=
  if R.vdot (R.vcross (R.vsub (m.node ed.n2).xyz (m.node ed.n1).xyz) (R.vsub (R.mid m t1) (m.node ed.n1).xyz)) zGlobal < 0
  then (ed.n2, ed.n1) else (ed.n1, ed.n2)

/-- plate2d_add_k0s_edge_based.py:357-368 -/
noncomputable def edgeSEdge (m : Mesh) (pn : Bool) (alpha : ℝ) (fromArea : Bool) (K : Mat) (k : Key) : Mat × Option Err :=
  let ed := m.edge k
  match ed.trias with
  | [] => (K, some .indexError)
  | [t1] =>
    let (n1, n2) := R.edgeOrient m ed t1
    match R.edgeBEnv m pn alpha fromArea ed t1 n1 n2 with
    | .error x => (K, some x)
    | .ok env => R.addAll K (edgeBEntries (K := Fl R) env)
  | [t1, t2] =>
    let (n1, n2) := R.edgeOrient m ed t1
    match R.edgeIEnv m pn alpha fromArea ed t1 t2 n1 n2 with
    | .error x => (K, some x)
    | .ok env => R.addAll K (edgeIEntries (K := Fl R) env)
  | _ => (K, some .notImplemented)

/-- `add_k0s(k0, mesh, prop_from_node, method, alpha, maxl_from_area)`, plate2d_add_k0s.py:5-46 -/
noncomputable def addK0s (K : Mat) (m : Mesh) (pn : Bool) (method : String) (alpha : ℝ) (fromArea : Bool) : Mat × Option Err :=
  if method = "cell-based" then matLoop (R.cellSTria m pn alpha fromArea) K m.eids
  else if method = "cell-based-no-smoothing" then matLoop (R.cellNSTria m pn alpha fromArea) K m.eids
  else if method = "edge-based" then matLoop (R.edgeSEdge m pn alpha fromArea) K m.ekeys
  else (K, some .valueError)

/-! ### meshless/interpolate.py -/

/-- meshless/interpolate.py:38-41: the guard compares the rounded difference with 0 -/
noncomputable def lagLoop (x : Val) (m : ℕ) (xm : ℝ) : List (ℝ × ℕ) → Val → Except Err Val
  | [], fx => .ok fx
  | (xi, i) :: l, fx =>
    if i ≠ m ∧ R.sub xm xi ≠ 0 then do
      let num ← Val.lift2 R.sub x (.sc xi)
      let q ← Val.lift2 R.div num (.sc (R.sub xm xi))
      let fx' ← Val.lift2 R.mul fx q
      lagLoop x m xm l fx'
    else lagLoop x m xm l fx

/-- meshless/interpolate.py:42-48 -/
noncomputable def interp2Inner (y : Val) (ys : List ℝ) (fld : ℕ → ℕ → ℝ) (fx : Val) (m : ℕ) :
    List (ℝ × ℕ) → Val → Except Err Val
  | [], field => .ok field
  | (yn, n) :: l, field => do
    let fy ← R.lagLoop y n yn ys.zipIdx (.sc 1)
    let t ← Val.lift2 R.mul fx fy
    let t ← Val.lift2 R.mul t (.sc (fld m n))
    let field' ← Val.lift2 R.add field t
    interp2Inner y ys fld fx m l field'

/-- meshless/interpolate.py:36-48 -/
noncomputable def interp2Outer (x y : Val) (xs ys : List ℝ) (fld : ℕ → ℕ → ℝ) :
    List (ℝ × ℕ) → Val → Except Err Val
  | [], field => .ok field
  | (xm, m) :: l, field => do
    let fx ← R.lagLoop x m xm xs.zipIdx (.sc 1)
    let field' ← R.interp2Inner y ys fld fx m ys.zipIdx field
    interp2Outer x y xs ys fld l field'

/-- `interpolate_lagrange_2D`, meshless/interpolate.py:4-49 -/
noncomputable def interp2 (x y : Val) (xs ys : List ℝ) (field : Arr) : Except Err Val :=
  match field.shape with
  | [a, b] =>
    if a = xs.length then
      if b = ys.length then
        R.interp2Outer x y xs ys (fun m n => field.get [m, n]) xs.zipIdx (.sc 0)
      else .error .assertion
    else .error .assertion
  | _ => .error .assertion

end Rounding
end Meshless
