import Verif.Model.KG
import Verif.Model.K0s
import Verif.Model.Float

/-! The numerical functions of the library in floating-point arithmetic with a bounded exponent range: results too large become infinite,
results too small lose accuracy or become 0 (underflow), a division by zero gives an infinity or NaN and nothing raises an exception. The same
statements as in Model/Utils, K0, KG and K0s, with every operation replaced by that of the format.

Simplifications. Zeros carry no sign: a zero divisor counts as +0 (all divisors of the code that can vanish are absolute values, norms,
squares and sums of these, which numpy returns as +0). Coordinates, laminates, `alpha` and displacement vectors are finite
numbers. The discrete part of a run (incidence, other nodes, numbering, exceptions) does not depend on numbers; it is taken from the exact model,
whose mesh is the first component of the state. The numbers stored in that mesh (`Ac`, `ipts`) are never read here: they are replaced by the second
component, `Key → Geo`. -/

set_option autoImplicit false

namespace Meshless

/-- A floating-point number: finite, infinite (negative or not) or NaN. IEEE 754, not code of the package but the numbers it runs on. -/
inductive Flo
  | fin (x : ℝ)
  | inf (neg : Bool)
  | nan

/-- A floating-point format: `fl x` is the finite number nearest in the sense of the rounding mode, as if the exponent were unbounded above,
with relative error `u` and, for underflow, absolute error `eta`; `big` is the largest finite number. Not code of the package. -/
structure Fmt where
  u : ℝ
  eta : ℝ
  big : ℝ
  fl : ℝ → ℝ
  u_nonneg : 0 ≤ u
  eta_nonneg : 0 ≤ eta
  big_pos : 0 < big
  err : ∀ x, |fl x - x| ≤ u * |x| + eta
  zero : fl 0 = 0

namespace Flo

/-- finite: neither infinite nor NaN (`np.isfinite`) -/
def Finite : Flo → Prop
  | fin _ => True
  | _ => False

/-- `-a` -/
def neg : Flo → Flo
  | fin x => fin (-x)
  | inf s => inf (!s)
  | nan => nan

/-- `abs(a)`, meshless/utils.py:13 -/
def abs : Flo → Flo
  | fin x => fin |x|
  | inf _ => inf false
  | nan => nan

/-- `a < b`: false if one of them is NaN; plate2d_calc_k0.py:71-72 and the comparisons of `max`, `min` -/
def lt : Flo → Flo → Prop
  | fin x, fin y => x < y
  | fin _, inf s => s = false
  | inf s, fin _ => s = true
  | inf s, inf t => s = true ∧ t = false
  | _, _ => False

open Classical in
/-- `max(a, b)` of Python: the first unless the second is greater, plate2d_add_k0s_cell_based.py:83 -/
noncomputable def max2 (a b : Flo) : Flo := if a.lt b then b else a

open Classical in
/-- `min(a, b)` of Python: the first unless the second is smaller, plate2d_add_k0s_edge_based.py:197 -/
noncomputable def min2 (a b : Flo) : Flo := if b.lt a then b else a

/-- `max([...])` of Python, ValueError (`none`) on the empty list, plate2d_add_k0s_cell_based.py:83 -/
noncomputable def pyMax : List Flo → Option Flo
  | [] => none
  | a :: l => some (l.foldl max2 a)

end Flo

/-- A numpy array of shape (3,) of floating-point numbers, e.g. meshless/espim/classes.py:5 -/
structure FVec where
  (x y z : Flo)

/-- the coordinates of a node as floating-point numbers, meshless/espim/read_mesh.py:98 -/
def Vec3.flo (p : Vec3) : FVec := ⟨.fin p.x, .fin p.y, .fin p.z⟩

/-- `IntegrationPoint`, meshless/espim/classes.py:4-16 -/
structure FPt where
  (tria n1 n2 n3 : ℕ)
  (f1 f2 f3 nx ny nz le : Flo)
  xyz : FVec

/-- the triangle and nodes of a point, with meaningless numbers, to use the index functions of plate2d_calc_k0.py:153-161 -/
def FPt.ids (p : FPt) : IPt := ⟨p.tria, p.n1, p.n2, p.n3, 0, 0, 0, 0, 0, 0, 0, ⟨0, 0, 0⟩⟩

/-- the numbers `calc_k0` stores at an edge, plate2d_calc_k0.py:111-114 -/
structure Geo where
  sdomain : List FVec
  ipts : List FPt
  Ac : Flo

/-- A square dense `numpy` matrix, plate2d_calc_k0.py:135, plate2d_calc_kG.py:36 -/
structure FMat where
  dim : ℕ
  get : ℕ → ℕ → Flo

/-- `np.zeros((n, n))`, plate2d_calc_k0.py:135, plate2d_calc_kG.py:36 -/
def FMat.zeros (n : ℕ) : FMat := ⟨n, fun _ _ => .fin 0⟩

namespace Fmt
variable (f : Fmt)

open Classical in
/-- the floating-point result for the exact value `x`: rounded, infinite beyond the largest finite number -/
noncomputable def rnd (x : ℝ) : Flo := if |f.fl x| ≤ f.big then .fin (f.fl x) else .inf (decide (x < 0))

/-- `a + b` -/
noncomputable def add : Flo → Flo → Flo
  | .fin x, .fin y => f.rnd (x + y)
  | .fin _, .inf s => .inf s
  | .inf s, .fin _ => .inf s
  | .inf s, .inf t => if s = t then .inf s else .nan
  | _, _ => .nan

/-- `a - b` -/
noncomputable def sub (a b : Flo) : Flo := f.add a b.neg

open Classical in
/-- `a * b` -/
noncomputable def mul : Flo → Flo → Flo
  | .fin x, .fin y => f.rnd (x * y)
  | .fin x, .inf s => if x = 0 then .nan else .inf (xor s (decide (x < 0)))
  | .inf s, .fin x => if x = 0 then .nan else .inf (xor s (decide (x < 0)))
  | .inf s, .inf t => .inf (xor s t)
  | _, _ => .nan

open Classical in
/-- `a / b` of numpy numbers: a division by zero gives an infinity or NaN -/
noncomputable def div : Flo → Flo → Flo
  | .fin x, .fin y => if y = 0 then (if x = 0 then .nan else .inf (decide (x < 0))) else f.rnd (x / y)
  | .fin _, .inf _ => .fin 0
  | .inf s, .fin y => .inf (xor s (decide (y < 0)))
  | _, _ => .nan

open Classical in
/-- `np.sqrt(a)` and `a**0.5` -/
noncomputable def sqrt : Flo → Flo
  | .fin x => if x < 0 then .nan else f.rnd (Real.sqrt x)
  | .inf false => .inf false
  | _ => .nan

end Fmt

/-- A floating-point number on which `+`, `-`, `*`, `/` are the operations of the format `f`. The generated formulas (Model/Gen) are evaluated
at this type; a literal of the program is rounded. -/
def Fo (_ : Fmt) := Flo

namespace Fo
variable {f : Fmt}
noncomputable instance : Add (Fo f) := ⟨fun a b => f.add a b⟩
noncomputable instance : Sub (Fo f) := ⟨fun a b => f.sub a b⟩
noncomputable instance : Mul (Fo f) := ⟨fun a b => f.mul a b⟩
noncomputable instance : Div (Fo f) := ⟨fun a b => f.div a b⟩
instance : Neg (Fo f) := ⟨fun a => Flo.neg a⟩
noncomputable instance : OfNat (Fo f) 1 := ⟨f.rnd 1⟩
noncomputable instance : OfNat (Fo f) 2 := ⟨f.rnd 2⟩
noncomputable instance : OfNat (Fo f) 4 := ⟨f.rnd 4⟩
noncomputable instance : OfNat (Fo f) 8 := ⟨f.rnd 8⟩
noncomputable instance : OfScientific (Fo f) := ⟨fun m s e => f.rnd (OfScientific.ofScientific m s e : ℝ)⟩
end Fo

namespace Fmt
variable (f : Fmt)

/-! ### vectors -/

/-- numpy `a - b`, plate2d_calc_k0.py:71,74 -/
noncomputable def vsub (a b : FVec) : FVec := ⟨f.sub a.x b.x, f.sub a.y b.y, f.sub a.z b.z⟩
/-- numpy `a + b`, meshless/espim/classes.py:5 -/
noncomputable def vadd (a b : FVec) : FVec := ⟨f.add a.x b.x, f.add a.y b.y, f.add a.z b.z⟩
/-- numpy `c * a`, meshless/espim/classes.py:5 -/
noncomputable def vsmul (c : Flo) (a : FVec) : FVec := ⟨f.mul c a.x, f.mul c a.y, f.mul c a.z⟩
/-- `np.cross`, plate2d_calc_k0.py:71,75,83,91,98,105 -/
noncomputable def vcross (a b : FVec) : FVec :=
  ⟨f.sub (f.mul a.y b.z) (f.mul a.z b.y), f.sub (f.mul a.z b.x) (f.mul a.x b.z), f.sub (f.mul a.x b.y) (f.mul a.y b.x)⟩
/-- `np.dot`, plate2d_calc_k0.py:71 -/
noncomputable def vdot (a b : FVec) : Flo := f.add (f.add (f.mul a.x b.x) (f.mul a.y b.y)) (f.mul a.z b.z)
/-- `np.linalg.norm(v)`, `np.sqrt((v**2).sum())`, `np.sum(v**2)**0.5`: meshless/utils.py:19, plate2d_calc_k0.py:78,85,93,100,107,
plate2d_add_k0s_cell_based.py:83 -/
noncomputable def vnorm (a : FVec) : Flo := f.sqrt (f.add (f.add (f.mul a.x a.x) (f.mul a.y a.y)) (f.mul a.z a.z))
/-- `unitvec(vector)`, meshless/utils.py:16-19 -/
noncomputable def unit (v : FVec) : FVec := ⟨f.div v.x (f.vnorm v), f.div v.y (f.vnorm v), f.div v.z (f.vnorm v)⟩

/-! ### meshless/utils.py -/

/-- one term of `area_of_polygon`, meshless/utils.py:11-12: `area += x[i]*(y[i+1] - y[i-1])` -/
noncomputable def areaTerm (area : Flo) (p next prev : FVec) : Flo := f.add area (f.mul p.x (f.sub next.y prev.y))

/-- `area_of_polygon` of three points, meshless/utils.py:7-13: the loop runs over `i = -1, 0, 1` -/
noncomputable def area3 (a b c : FVec) : Flo :=
  f.div (f.areaTerm (f.areaTerm (f.areaTerm (.fin 0) c a b) a b c) b c a).abs (.fin 2)

/-- `area_of_polygon` of four points, meshless/utils.py:7-13: the loop runs over `i = -1, 0, 1, 2` -/
noncomputable def area4 (a b c d : FVec) : Flo :=
  f.div (f.areaTerm (f.areaTerm (f.areaTerm (f.areaTerm (.fin 0) d a c) a b d) b c a) c d b).abs (.fin 2)

/-- `area_of_polygon` of five points, meshless/utils.py:7-13: the loop runs over `i = -1, 0, 1, 2, 3` -/
noncomputable def area5 (a b c d e : FVec) : Flo :=
  f.div (f.areaTerm (f.areaTerm (f.areaTerm (f.areaTerm (f.areaTerm (.fin 0) e a d) a b e) b c a) c d b) d e c).abs (.fin 2)

/-- `getMid(tria)`, meshless/utils.py:22-25: `mean(axis=0)` adds the rows and divides by their number -/
noncomputable def mid (m : Mesh) (e : ℕ) : FVec :=
  let t := m.tria e
  let a := (m.pos t.n1).flo; let b := (m.pos t.n2).flo; let c := (m.pos t.n3).flo
  ⟨f.div (f.add (f.add a.x b.x) c.x) (.fin 3), f.div (f.add (f.add a.y b.y) c.y) (.fin 3), f.div (f.add (f.add a.z b.z) c.z) (.fin 3)⟩

/-- `tria.get_area()` (pyNastran), plate2d_add_k0s_cell_based.py:28 -/
noncomputable def triaArea (m : Mesh) (e : ℕ) : Flo :=
  let t := m.tria e
  let a := (m.pos t.n1).flo; let b := (m.pos t.n2).flo; let c := (m.pos t.n3).flo
  f.div (f.vnorm (f.vcross (f.vsub a b) (f.vsub a c))) (.fin 2)

/-! ### meshless/espim/plate2d_calc_k0.py -/

/-- `node.xyz`, meshless/espim/read_mesh.py:98 -/
def xyz (m : Mesh) (i : ℕ) : FVec := (m.node i).xyz.flo

/-- `IntegrationPoint(...)`, meshless/espim/classes.py:4-16 -/
noncomputable def mkIPt (m : Mesh) (tria n1 n2 n3 : ℕ) (f1 f2 f3 : Flo) (n : FVec) (le : Flo) : FPt :=
  ⟨tria, n1, n2, n3, f1, f2, f3, n.x, n.y, n.z, le, f.vadd (f.vadd (f.vsmul f1 (xyz m n1)) (f.vsmul f2 (xyz m n2))) (f.vsmul f3 (xyz m n3))⟩

open Classical in
/-- the test of plate2d_calc_k0.py:71-72 on the computed dot product -/
noncomputable def orient (m : Mesh) (mid1 : FVec) (a b : ℕ) : ℕ × ℕ :=
  if (f.vdot (f.vcross (f.vsub mid1 (xyz m b)) (f.vsub (xyz m a) (xyz m b))) zGlobal.flo).lt (.fin 0) then (b, a) else (a, b)

/-- `unitvec(np.cross(tmpvec, ZGLOBAL))`, plate2d_calc_k0.py:75,83,91,98,105 -/
noncomputable def segNormal (t : FVec) : FVec := f.unit (f.vcross t zGlobal.flo)

/-- plate2d_calc_k0.py:74-87 -/
noncomputable def iptsA (m : Mesh) (t1 : ℕ) (node1 node2 o1 : ℕ) : List FPt :=
  let mid1 := f.mid m t1
  let v1 := f.vsub (xyz m node1) mid1
  let v2 := f.vsub mid1 (xyz m node2)
  [f.mkIPt m t1 node1 node2 o1 (f.rnd (2/3)) (f.rnd (1/6)) (f.rnd (1/6)) (f.segNormal v1) (f.vnorm v1),
   f.mkIPt m t1 node1 node2 o1 (f.rnd (1/6)) (f.rnd (2/3)) (f.rnd (1/6)) (f.segNormal v2) (f.vnorm v2)]

/-- plate2d_calc_k0.py:90-95 -/
noncomputable def iptsB (m : Mesh) (t1 : ℕ) (node1 node2 o1 : ℕ) : List FPt :=
  let v := f.vsub (xyz m node2) (xyz m node1)
  [f.mkIPt m t1 node1 node2 o1 (f.rnd (1/2)) (f.rnd (1/2)) (.fin 0) (f.segNormal v) (f.vnorm v)]

/-- plate2d_calc_k0.py:97-109 -/
noncomputable def iptsI (m : Mesh) (t2 : ℕ) (node1 node2 o2 : ℕ) : List FPt :=
  let mid2 := f.mid m t2
  let v3 := f.vsub (xyz m node2) mid2
  let v4 := f.vsub mid2 (xyz m node1)
  [f.mkIPt m t2 node1 node2 o2 (f.rnd (1/6)) (f.rnd (2/3)) (f.rnd (1/6)) (f.segNormal v3) (f.vnorm v3),
   f.mkIPt m t2 node1 node2 o2 (f.rnd (2/3)) (f.rnd (1/6)) (f.rnd (1/6)) (f.segNormal v4) (f.vnorm v4)]

/-- the numbers of one iteration of the geometry loop, plate2d_calc_k0.py:64-114, for an edge whose other nodes are known -/
noncomputable def geo (m : Mesh) (ed : Edge) : Geo :=
  match ed.trias, ed.other1, ed.other2 with
  | [t1], some o1, _ =>
    let mid1 := f.mid m t1
    let (node1, node2) := f.orient m mid1 ed.n1 ed.n2
    let p1 := xyz m node1; let p2 := xyz m node2
    ⟨[p1, mid1, p2, p1], f.iptsA m t1 node1 node2 o1 ++ f.iptsB m t1 node1 node2 o1, f.area4 p1 mid1 p2 p1⟩
  | [t1, t2], some o1, some o2 =>
    let mid1 := f.mid m t1
    let mid2 := f.mid m t2
    let (node1, node2) := f.orient m mid1 ed.n1 ed.n2
    let p1 := xyz m node1; let p2 := xyz m node2
    ⟨[p1, mid1, p2, mid2, p1], f.iptsA m t1 node1 node2 o1 ++ f.iptsI m t2 node1 node2 o2, f.area5 p1 mid1 p2 mid2 p1⟩
  | _, _, _ => ⟨[], [], .nan⟩

/-- filling one weight row, plate2d_calc_k0.py:163-199 -/
def weightRow (idx : ℕ → ℤ) (ix : List ℤ) (p : FPt) : List Flo :=
  (((List.replicate 4 (Flo.fin 0)).set (indexPos ix (idx p.n1)) p.f1).set (indexPos ix (idx p.n2)) p.f2).set
    (indexPos ix (idx p.n3)) p.f3

/-- entry of a weight row, plate2d_calc_k0.py:201-204 -/
def wAt (r : List Flo) (i : ℕ) : Flo := r.getD i (.fin 0)

/-- `c1*p1 + c2*p2 + c3*p3` of numpy matrices, plate2d_calc_k0.py:211-213 -/
noncomputable def mix3 {ι : Type} (c1 c2 c3 : Flo) (P Q S : ι → ι → ℝ) : ι → ι → Flo :=
  fun i j => f.add (f.add (f.mul c1 (.fin (P i j))) (f.mul c2 (.fin (Q i j)))) (f.mul c3 (.fin (S i j)))
/-- `c1*p1 + c2*p2 + c3*p3 + c4*p4` of numpy matrices, plate2d_calc_k0.py:216-218 -/
noncomputable def mix4 {ι : Type} (c1 c2 c3 c4 : Flo) (P Q S T : ι → ι → ℝ) : ι → ι → Flo :=
  fun i j => f.add (f.add (f.add (f.mul c1 (.fin (P i j))) (f.mul c2 (.fin (Q i j)))) (f.mul c3 (.fin (S i j)))) (f.mul c4 (.fin (T i j)))
/-- `(a*P + b*Q)/c` of numpy matrices, plate2d_calc_k0.py:227-229 -/
noncomputable def mixA {ι : Type} (a b c : Flo) (P Q : ι → ι → ℝ) : ι → ι → Flo :=
  fun i j => f.div (f.add (f.mul a (.fin (P i j))) (f.mul b (.fin (Q i j)))) c

/-- plate2d_calc_k0.py:206-229 and plate2d_calc_kG.py:106-126 -/
noncomputable def edgeProp (m : Mesh) (pn : Bool) (ed : Edge) (Ac : Flo) (sel : Lam → Fin 3 → Fin 3 → ℝ) :
    Except Err (Fin 3 → Fin 3 → Flo) :=
  let t1 := ed.trias.getD 0 0
  let t2 := ed.trias[1]?
  if pn then
    match ed.other1 with
    | none => .error .attributeError
    | some o1 =>
      match (m.node ed.n1).prop, (m.node ed.n2).prop, (m.node o1).prop with
      | some pn1, some pn2, some po1 =>
        match t2 with
        | none => .ok (f.mix3 (f.rnd (4/9)) (f.rnd (4/9)) (f.rnd (1/9)) (sel pn1) (sel pn2) (sel po1))
        | some _ =>
          match ed.other2 with
          | none => .error .attributeError
          | some o2 =>
            match (m.node o2).prop with
            | some po2 => .ok (f.mix4 (f.rnd (5/12)) (f.rnd (5/12)) (f.rnd (1/12)) (f.rnd (1/12)) (sel pn1) (sel pn2) (sel po1) (sel po2))
            | none => .error .attributeError
      | _, _, _ => .error .attributeError
  else
    match (m.tria t1).prop with
    | none => .error .attributeError
    | some prop1 =>
      match t2 with
      | none => .ok (fun i j => .fin (sel prop1 i j))
      | some t2 =>
        match (m.tria t2).prop with
        | some prop2 =>
          let Ac1 := f.area3 (f.mid m t1) (xyz m ed.n2) (xyz m ed.n1)
          let Ac2 := f.area3 (f.mid m t2) (xyz m ed.n1) (xyz m ed.n2)
          .ok (f.mixA Ac1 Ac2 Ac (sel prop1) (sel prop2))
        | none => .error .attributeError

/-- the local variables for one edge before the `k0[...] +=` block, plate2d_calc_k0.py:138-250 -/
noncomputable def k0Env (m : Mesh) (pn : Bool) (ed : Edge) (g : Geo) : Except Err (K0Env Flo) :=
  if ed.trias = [] then .error .indexError
  else if 2 < ed.trias.length then .error .runtimeError
  else if !iptsIndexed m (g.ipts.map FPt.ids) then .error .typeError
  else
    let ix0 := iptIndices (nodeIdx m) (g.ipts.map FPt.ids)
    let ix := if g.ipts.length = 3 then ix0 ++ [-1] else ix0
    match ix with
    | [i1, i2, i3, i4] =>
      match g.ipts with
      | p1 :: p2 :: p3 :: rest =>
        let f1 := weightRow (nodeIdx m) ix p1
        let f2 := weightRow (nodeIdx m) ix p2
        let f3 := weightRow (nodeIdx m) ix p3
        let f4 := match rest with | p4 :: _ => weightRow (nodeIdx m) ix p4 | [] => List.replicate 4 (.fin 0)
        let nx4 := match rest with | p4 :: _ => p4.nx | [] => .fin 0
        let ny4 := match rest with | p4 :: _ => p4.ny | [] => .fin 0
        let le4 := match rest with | p4 :: _ => p4.le | [] => .fin 0
        match f.edgeProp m pn ed g.Ac Lam.A, f.edgeProp m pn ed g.Ac Lam.B, f.edgeProp m pn ed g.Ac Lam.D with
        | .ok A, .ok B, .ok D =>
          .ok { i1, i2, i3, i4, Ac := g.Ac,
                A11 := A 0 0, A12 := A 0 1, A16 := A 0 2, A22 := A 1 1, A26 := A 1 2, A66 := A 2 2,
                B11 := B 0 0, B12 := B 0 1, B16 := B 0 2, B22 := B 1 1, B26 := B 1 2, B66 := B 2 2,
                D11 := D 0 0, D12 := D 0 1, D16 := D 0 2, D22 := D 1 1, D26 := D 1 2, D66 := D 2 2,
                f11 := wAt f1 0, f12 := wAt f1 1, f13 := wAt f1 2, f14 := wAt f1 3,
                f21 := wAt f2 0, f22 := wAt f2 1, f23 := wAt f2 2, f24 := wAt f2 3,
                f31 := wAt f3 0, f32 := wAt f3 1, f33 := wAt f3 2, f34 := wAt f3 3,
                f41 := wAt f4 0, f42 := wAt f4 1, f43 := wAt f4 2, f44 := wAt f4 3,
                le1 := p1.le, le2 := p2.le, le3 := p3.le, le4,
                nx1 := p1.nx, nx2 := p2.nx, nx3 := p3.nx, nx4,
                ny1 := p1.ny, ny2 := p2.ny, ny3 := p3.ny, ny4 }
        | .error e, _, _ => .error e
        | _, .error e, _ => .error e
        | _, _, .error e => .error e
      | _ => .error .indexError
    | _ => .error .valueError

/-- `k[r, c] += v` once `r`, `c` are valid positions, plate2d_calc_k0.py:253-508 and the other assembly routines -/
noncomputable def bump (M : FMat) (r c : ℕ) (v : Flo) : FMat :=
  ⟨M.dim, fun i j => if i = r ∧ j = c then f.add (M.get i j) v else M.get i j⟩

/-- `k[r, c] += v` with Python index rules, e.g. plate2d_calc_k0.py:253 -/
noncomputable def addAt (M : FMat) (r c : ℤ) (v : Flo) : Except Err FMat :=
  match pyIdx M.dim r, pyIdx M.dim c with
  | some i, some j => .ok (f.bump M i j v)
  | _, _ => .error .indexError

/-- a straight-line block of `k[r, c] += v` statements, plate2d_calc_k0.py:253-508 and the other files -/
noncomputable def addAll (M : FMat) : List (ℤ × ℤ × Fo f) → FMat × Option Err
  | [] => (M, none)
  | (r, c, v) :: es =>
    match f.addAt M r c v with
    | .ok M' => addAll M' es
    | .error e => (M, some e)

/-- a loop that modifies a matrix in place and stops at the first exception, plate2d_calc_k0.py:137-508 and the other files -/
def loop {α : Type} (g : FMat → α → FMat × Option Err) (K : FMat) : List α → FMat × Option Err
  | [] => (K, none)
  | a :: as =>
    match g K a with
    | (K', none) => loop g K' as
    | (K', some e) => (K', some e)

/-- one iteration of the assembly loop, plate2d_calc_k0.py:137-508 -/
noncomputable def k0Edge (m : Mesh) (g : Key → Geo) (pn : Bool) (K : FMat) (k : Key) : FMat × Option Err :=
  match f.k0Env m pn (m.edge k) (g k) with
  | .error e => (K, some e)
  | .ok env => f.addAll K (k0Entries (K := Fo f) env)

/-- `calc_k0(mesh, prop_from_node)`, plate2d_calc_k0.py:11-511. The result: the mesh with numbering and incidence, the numbers at the edges, and the
matrix or the exception. The incidence found and the exceptions raised in lines 15-122 depend on no number, so that part is `geomPass` of K0.lean. -/
noncomputable def calcK0 (m : Mesh) (pn : Bool) : Mesh × (Key → Geo) × Except Err FMat :=
  if m.ekeys.any (edgeMissing m pn) then (m, fun k => f.geo m (m.edge k), .error .valueError)
  else
    match geomPass m m.ekeys with
    | (m1, some e) => (m1, fun k => f.geo m1 (m1.edge k), .error e)
    | (m1, none) =>
      if m1.nids = [] then (m1, fun k => f.geo m1 (m1.edge k), .error .valueError)
      else
        let m2 := numberNodes m1 m1.nids 0
        let g := fun k => f.geo m2 (m2.edge k)
        match loop (f.k0Edge m2 g pn) (FMat.zeros (m2.nids.length * 5)) m2.ekeys with
        | (K, none) => (m2, g, .ok K)
        | (_, some e) => (m2, g, .error e)

/-! ### meshless/espim/plate2d_calc_kG.py -/

/-- a sum of four numbers, plate2d_calc_kG.py:134-140,142-154 -/
noncomputable def sum4 (a b c d : Flo) : Flo := f.add (f.add (f.add a b) c) d

/-- plate2d_calc_kG.py:134-140 -/
noncomputable def dcAt (w : List Flo) (d1 d2 d3 d4 : List ℝ) (r : ℕ) : Flo :=
  f.sum4 (f.mul (wAt w 0) (.fin (d1.getD r 0))) (f.mul (wAt w 1) (.fin (d2.getD r 0))) (f.mul (wAt w 2) (.fin (d3.getD r 0)))
    (f.mul (wAt w 3) (.fin (d4.getD r 0)))

/-- `np.dot(A, em)`, plate2d_calc_kG.py:156 -/
noncomputable def dot3 (A : Fin 3 → Fin 3 → Flo) (e : Fin 3 → Flo) (i : Fin 3) : Flo :=
  f.add (f.add (f.mul (A i 0) (e 0)) (f.mul (A i 1) (e 1))) (f.mul (A i 2) (e 2))

/-- the membrane forces of an edge, plate2d_calc_kG.py:134-156 -/
noncomputable def resN (Ac : Flo) (A B : Fin 3 → Fin 3 → Flo) (f1 f2 f3 f4 : List Flo) (d1 d2 d3 d4 : List ℝ) (p1 p2 p3 : FPt)
    (le4 nx4 ny4 : Flo) : Fin 3 → Flo :=
  let c := fun (w : List Flo) r => f.dcAt w d1 d2 d3 d4 r
  let sx := fun r => f.sum4 (f.mul (f.mul p1.le p1.nx) (c f1 r)) (f.mul (f.mul p2.le p2.nx) (c f2 r))
    (f.mul (f.mul p3.le p3.nx) (c f3 r)) (f.mul (f.mul le4 nx4) (c f4 r))
  let sy := fun r => f.sum4 (f.mul (f.mul p1.le p1.ny) (c f1 r)) (f.mul (f.mul p2.le p2.ny) (c f2 r))
    (f.mul (f.mul p3.le p3.ny) (c f3 r)) (f.mul (f.mul le4 ny4) (c f4 r))
  let sxy := fun r s => f.sum4
    (f.mul p1.le (f.add (f.mul p1.ny (c f1 r)) (f.mul p1.nx (c f1 s)))) (f.mul p2.le (f.add (f.mul p2.ny (c f2 r)) (f.mul p2.nx (c f2 s))))
    (f.mul p3.le (f.add (f.mul p3.ny (c f3 r)) (f.mul p3.nx (c f3 s)))) (f.mul le4 (f.add (f.mul ny4 (c f4 r)) (f.mul nx4 (c f4 s))))
  let em : Fin 3 → Flo := ![f.mul (f.div (.fin 1) Ac) (sx 0), f.mul (f.div (.fin 1) Ac) (sy 1), f.mul (f.div (.fin 1) Ac) (sxy 0 1)]
  let eb : Fin 3 → Flo := ![f.mul (f.div (.fin 1) Ac) (sx 3), f.mul (f.div (.fin 1) Ac) (sy 4), f.mul (f.div (.fin 1) Ac) (sxy 3 4)]
  fun i => f.add (f.dot3 A em i) (f.dot3 B eb i)

/-- the local variables of one edge before the `kG[...] +=` block, plate2d_calc_kG.py:39-156 -/
noncomputable def kGEnv (m : Mesh) (d : List ℝ) (pn : Bool) (ed : Edge) (g : Geo) : Except Err (KGEnv Flo) :=
  if ed.trias = [] then .error .indexError
  else if 2 < ed.trias.length then .error .runtimeError
  else if !iptsIndexed m (g.ipts.map FPt.ids) then .error .typeError
  else
    let ix0 := iptIndices (nodeIdx m) (g.ipts.map FPt.ids)
    let ix := if g.ipts.length = 3 then ix0 ++ [0] else ix0
    match ix with
    | [i1, i2, i3, i4] =>
      match g.ipts with
      | p1 :: p2 :: p3 :: rest =>
        let f1 := weightRow (nodeIdx m) ix p1
        let f2 := weightRow (nodeIdx m) ix p2
        let f3 := weightRow (nodeIdx m) ix p3
        let f4 := match rest with | p4 :: _ => weightRow (nodeIdx m) ix p4 | [] => List.replicate 4 (.fin 0)
        let nx4 := match rest with | p4 :: _ => p4.nx | [] => .fin 0
        let ny4 := match rest with | p4 :: _ => p4.ny | [] => .fin 0
        let le4 := match rest with | p4 :: _ => p4.le | [] => .fin 0
        match f.edgeProp m pn ed g.Ac Lam.A, f.edgeProp m pn ed g.Ac Lam.B with
        | .ok A, .ok B =>
          let d1 := dSlice d i1; let d2 := dSlice d i2; let d3 := dSlice d i3; let d4 := dSlice d i4
          if d1.length = 5 ∧ d2.length = 5 ∧ d3.length = 5 ∧ d4.length = 5 then
            let N := f.resN g.Ac A B f1 f2 f3 f4 d1 d2 d3 d4 p1 p2 p3 le4 nx4 ny4
            .ok { i1, i2, i3, i4, Ac := g.Ac, Nxx := N 0, Nyy := N 1, Nxy := N 2
                  f11 := wAt f1 0, f12 := wAt f1 1, f13 := wAt f1 2, f14 := wAt f1 3,
                  f21 := wAt f2 0, f22 := wAt f2 1, f23 := wAt f2 2, f24 := wAt f2 3,
                  f31 := wAt f3 0, f32 := wAt f3 1, f33 := wAt f3 2, f34 := wAt f3 3,
                  f41 := wAt f4 0, f42 := wAt f4 1, f43 := wAt f4 2, f44 := wAt f4 3,
                  le1 := p1.le, le2 := p2.le, le3 := p3.le, le4,
                  nx1 := p1.nx, nx2 := p2.nx, nx3 := p3.nx, nx4,
                  ny1 := p1.ny, ny2 := p2.ny, ny3 := p3.ny, ny4 }
          else if d1.length = d2.length ∧ d1.length = d3.length ∧ d1.length = d4.length then .error .indexError
          else .error .valueError
        | .error e, _ => .error e
        | _, .error e => .error e
      | _ => .error .indexError
    | _ => .error .valueError

/-- one iteration of the loop, plate2d_calc_kG.py:38-174 -/
noncomputable def kGEdge (m : Mesh) (g : Key → Geo) (d : List ℝ) (pn : Bool) (K : FMat) (k : Key) : FMat × Option Err :=
  match f.kGEnv m d pn (m.edge k) (g k) with
  | .error e => (K, some e)
  | .ok env => f.addAll K (kGEntries (K := Fo f) env)

/-- `calc_kG(d, mesh, prop_from_node)`, plate2d_calc_kG.py:9-177 -/
noncomputable def calcKG (m : Mesh) (g : Key → Geo) (d : List ℝ) (pn : Bool) : Except Err FMat :=
  match loop (f.kGEdge m g d pn) (FMat.zeros (d.length / 5 * 5)) m.ekeys with
  | (K, none) => .ok K
  | (_, some e) => .error e

end Fmt

/-! ### meshless/espim/plate2d_add_k0s.py -/

/-- the laminate data used for transverse shear, plate2d_add_k0s_cell_based.py:63-75 -/
structure FShear where
  (k13 k23 h : Flo)
  E : Fin 2 → Fin 2 → Flo

/-- the laminate's own values, plate2d_add_k0s_cell_based.py:72-75 -/
def Lam.fshear (p : Lam) : FShear := ⟨.fin p.k13, .fin p.k23, .fin p.h, fun i j => .fin (p.E i j)⟩

namespace Fmt
variable (f : Fmt)

/-- `c1*a + c2*b + c3*c`, plate2d_add_k0s_cell_based.py:67-70 -/
noncomputable def lin3 (c1 c2 c3 : Flo) (a b c : ℝ) : Flo := f.add (f.add (f.mul c1 (.fin a)) (f.mul c2 (.fin b))) (f.mul c3 (.fin c))

/-- plate2d_add_k0s_cell_based.py:64-70 (1/3 each), plate2d_add_k0s_edge_based.py:32-38 (4/9, 4/9, 1/9) -/
noncomputable def shear3 (c1 c2 c3 : Flo) (p q r : Lam) : FShear :=
  ⟨f.lin3 c1 c2 c3 p.k13 q.k13 r.k13, f.lin3 c1 c2 c3 p.k23 q.k23 r.k23, f.lin3 c1 c2 c3 p.h q.h r.h, f.mix3 c1 c2 c3 p.E q.E r.E⟩

/-- plate2d_add_k0s_edge_based.py:183-186 -/
noncomputable def shear4 (p q r s : Lam) : FShear :=
  let g := fun a b c d : ℝ => f.sum4 (f.mul (f.rnd (5/12)) (.fin a)) (f.mul (f.rnd (5/12)) (.fin b)) (f.mul (f.rnd (1/12)) (.fin c))
    (f.mul (f.rnd (1/12)) (.fin d))
  ⟨g p.k13 q.k13 r.k13 s.k13, g p.k23 q.k23 r.k23 s.k23, g p.h q.h r.h s.h,
    f.mix4 (f.rnd (5/12)) (f.rnd (5/12)) (f.rnd (1/12)) (f.rnd (1/12)) p.E q.E r.E s.E⟩

/-- plate2d_add_k0s_edge_based.py:191-194 -/
noncomputable def shearA (Ac1 Ac2 Ac : Flo) (p q : Lam) : FShear :=
  let g := fun a b : ℝ => f.div (f.add (f.mul Ac1 (.fin a)) (f.mul Ac2 (.fin b))) Ac
  ⟨g p.k13 q.k13, g p.k23 q.k23, g p.h q.h, f.mixA Ac1 Ac2 Ac p.E q.E⟩

/-- plate2d_add_k0s_cell_based.py:63-75, plate2d_add_k0s_cell_based_no_smoothing.py:30-42 -/
noncomputable def cellShear (m : Mesh) (pn : Bool) (e n1 n2 n3 : ℕ) : Except Err FShear :=
  if pn then
    match (m.node n1).prop, (m.node n2).prop, (m.node n3).prop with
    | some p, some q, some r => .ok (f.shear3 (f.rnd (1/3)) (f.rnd (1/3)) (f.rnd (1/3)) p q r)
    | _, _, _ => .error .attributeError
  else
    match (m.tria e).prop with
    | some p => .ok p.fshear
    | none => .error .attributeError

/-- plate2d_add_k0s_cell_based.py:83 -/
noncomputable def edgeLen (m : Mesh) (k : Key) : Flo := f.vnorm (f.vsub (xyz m (m.edge k).n1) (xyz m (m.edge k).n2))

/-- plate2d_add_k0s_cell_based.py:80-83, plate2d_add_k0s_cell_based_no_smoothing.py:48-51 -/
noncomputable def cellMaxl (m : Mesh) (e : ℕ) (Ac : Flo) (fromArea : Bool) : Except Err Flo :=
  if fromArea then .ok (f.sqrt Ac)
  else match Flo.pyMax ((m.tria e).edges.map (f.edgeLen m)) with
    | some a => .ok a
    | none => .error .valueError

/-- plate2d_add_k0s_cell_based.py:85-86 -/
noncomputable def stab (alpha : ℝ) (maxl h : Flo) : Flo :=
  f.div (.fin 1) (f.add (.fin 1) (f.div (f.mul (.fin alpha) (f.mul maxl maxl)) (f.mul h h)))

open Classical in
/-- plate2d_add_k0s_cell_based.py:20-24 -/
noncomputable def cellOrient (m : Mesh) (e : ℕ) : ℕ × ℕ × ℕ :=
  let t := m.tria e
  if (f.vdot (f.vcross (f.vsub (xyz m t.n1) (f.mid m e)) (f.vsub (xyz m t.n2) (f.mid m e))) zGlobal.flo).lt (.fin 0)
  then (t.n2, t.n1, t.n3) else (t.n1, t.n2, t.n3)

/-- the two moduli of the cell methods, plate2d_add_k0s_cell_based.py:76-88 -/
noncomputable def moduli (alpha : ℝ) (maxl : Flo) (sp : FShear) : Flo × Flo :=
  (f.mul (f.stab alpha maxl sp.h) (f.mul sp.k23 (sp.E 0 0)), f.mul (f.stab alpha maxl sp.h) (f.mul sp.k13 (sp.E 1 1)))

/-- plate2d_add_k0s_cell_based.py:19-92 -/
noncomputable def cellSEnv (m : Mesh) (pn : Bool) (alpha : ℝ) (fromArea : Bool) (e : ℕ) : Except Err (CellSEnv Flo) := do
  let (n1, n2, n3) := f.cellOrient m e
  let mid := f.mid m e
  let p1 := xyz m n1; let p2 := xyz m n2; let p3 := xyz m n3
  let Ac := f.triaArea m e
  let sp ← f.cellShear m pn e n1 n2 n3
  let maxl ← f.cellMaxl m e Ac fromArea
  match (m.node n1).index, (m.node n2).index, (m.node n3).index with
  | some i1, some i2, some i3 =>
    .ok { i1, i2, i3, Ac,
          a1 := f.sub p1.x mid.x, b1 := f.sub p1.y mid.y, c1 := f.sub p2.x mid.x, d1 := f.sub p2.y mid.y, Ac1 := f.area3 mid p1 p2,
          a2 := f.sub p2.x mid.x, b2 := f.sub p2.y mid.y, c2 := f.sub p3.x mid.x, d2 := f.sub p3.y mid.y, Ac2 := f.area3 mid p2 p3,
          a3 := f.sub p3.x mid.x, b3 := f.sub p3.y mid.y, c3 := f.sub p1.x mid.x, d3 := f.sub p1.y mid.y, Ac3 := f.area3 mid p3 p1,
          E44 := (f.moduli alpha maxl sp).1, E45 := .fin 0, E55 := (f.moduli alpha maxl sp).2 }
  | _, _, _ => .error .typeError

open Classical in
/-- plate2d_add_k0s_cell_based_no_smoothing.py:15-18 -/
noncomputable def cellNSOrient (m : Mesh) (e : ℕ) : ℕ × ℕ × ℕ :=
  let t := m.tria e
  let p1 := xyz m t.n1
  if (f.vdot (f.vcross (f.vsub (xyz m t.n2) p1) (f.vsub (xyz m t.n3) p1)) zGlobal.flo).lt (.fin 0)
  then (t.n2, t.n1, t.n3) else (t.n1, t.n2, t.n3)

/-- plate2d_add_k0s_cell_based_no_smoothing.py:15-60 -/
noncomputable def cellNSEnv (m : Mesh) (pn : Bool) (alpha : ℝ) (fromArea : Bool) (e : ℕ) : Except Err (CellNSEnv Flo) := do
  let (n1, n2, n3) := f.cellNSOrient m e
  let p1 := xyz m n1; let p2 := xyz m n2; let p3 := xyz m n3
  let Ac := f.triaArea m e
  let sp ← f.cellShear m pn e n1 n2 n3
  let maxl ← f.cellMaxl m e Ac fromArea
  match (m.node n1).index, (m.node n2).index, (m.node n3).index with
  | some i1, some i2, some i3 =>
    .ok { i1, i2, i3, Ac,
          a1 := f.sub p2.x p1.x, b1 := f.sub p2.y p1.y, c1 := f.sub p3.x p1.x, d1 := f.sub p3.y p1.y,
          E44 := (f.moduli alpha maxl sp).1, E45 := .fin 0, E55 := (f.moduli alpha maxl sp).2 }
  | _, _, _ => .error .typeError

/-- plate2d_add_k0s_cell_based.py:13-174 -/
noncomputable def cellSTria (m : Mesh) (pn : Bool) (alpha : ℝ) (fromArea : Bool) (K : FMat) (e : ℕ) : FMat × Option Err :=
  match f.cellSEnv m pn alpha fromArea e with
  | .error x => (K, some x)
  | .ok env => f.addAll K (cellSEntries (K := Fo f) env)

/-- plate2d_add_k0s_cell_based_no_smoothing.py:12-142 -/
noncomputable def cellNSTria (m : Mesh) (pn : Bool) (alpha : ℝ) (fromArea : Bool) (K : FMat) (e : ℕ) : FMat × Option Err :=
  match f.cellNSEnv m pn alpha fromArea e with
  | .error x => (K, some x)
  | .ok env => f.addAll K (cellNSEntries (K := Fo f) env)

/-- plate2d_add_k0s_edge_based.py:49-52 -/
noncomputable def edgeBMaxl (g : Geo) (fromArea : Bool) : Except Err Flo :=
  if fromArea then .ok (f.sqrt g.Ac)
  else match Flo.pyMax (g.ipts.map (·.le)) with
    | some a => .ok a
    | none => .error .valueError

/-- plate2d_add_k0s_edge_based.py:200-203 -/
noncomputable def edgeIMaxl (m : Mesh) (ed : Edge) (g : Geo) (fromArea : Bool) : Except Err Flo :=
  if fromArea then .ok (f.sqrt g.Ac)
  else match Flo.pyMax (g.ipts.map (·.le)) with
    | some a => .ok (Flo.max2 a (f.vnorm (f.vsub (xyz m ed.n1) (xyz m ed.n2))))
    | none => .error .valueError

/-- plate2d_add_k0s_edge_based.py:31-43 -/
noncomputable def edgeBShear (m : Mesh) (pn : Bool) (t1 n1 n2 o1 : ℕ) : Except Err FShear :=
  if pn then
    match (m.node n1).prop, (m.node n2).prop, (m.node o1).prop with
    | some p, some q, some r => .ok (f.shear3 (f.rnd (4/9)) (f.rnd (4/9)) (f.rnd (1/9)) p q r)
    | _, _, _ => .error .attributeError
  else
    match (m.tria t1).prop with
    | some p => .ok p.fshear
    | none => .error .attributeError

/-- plate2d_add_k0s_edge_based.py:178-194 -/
noncomputable def edgeIShear (m : Mesh) (pn : Bool) (Ac1 Ac2 Ac : Flo) (t1 t2 n1 n2 o1 o2 : ℕ) : Except Err FShear :=
  if pn then
    match (m.node n1).prop, (m.node n2).prop, (m.node o1).prop, (m.node o2).prop with
    | some p, some q, some r, some s => .ok (f.shear4 p q r s)
    | _, _, _, _ => .error .attributeError
  else
    match (m.tria t1).prop, (m.tria t2).prop with
    | some p, some q => .ok (f.shearA Ac1 Ac2 Ac p q)
    | _, _ => .error .attributeError

/-- plate2d_add_k0s_edge_based.py:196-207 -/
noncomputable def edgeIModuli (sp : FShear) (alpha : ℝ) (maxl : Flo) : Flo × Flo × Flo :=
  let c := f.div (f.mul sp.h sp.h) (f.add (f.mul sp.h sp.h) (f.mul (.fin alpha) (f.mul maxl maxl)))
  (f.mul c (f.mul sp.k13 (sp.E 0 0)), f.mul c (f.mul (Flo.min2 sp.k13 sp.k23) (sp.E 0 1)), f.mul c (f.mul sp.k23 (sp.E 1 1)))

/-- plate2d_add_k0s_edge_based.py:12-57 -/
noncomputable def edgeBEnv (m : Mesh) (pn : Bool) (alpha : ℝ) (fromArea : Bool) (ed : Edge) (g : Geo) (t1 n1 n2 : ℕ) :
    Except Err (EdgeBEnv Flo) :=
  match ed.other1 with
  | some o1 => do
    let mid1 := f.mid m t1
    let p1 := xyz m n1; let p2 := xyz m n2
    let sp ← f.edgeBShear m pn t1 n1 n2 o1
    let maxl ← f.edgeBMaxl g fromArea
    match (m.node n1).index, (m.node n2).index, (m.node o1).index with
    | some i1, some i2, some i3 =>
      .ok { i1, i2, i3, Ac := g.Ac, E44 := (f.moduli alpha maxl sp).1, E45 := .fin 0, E55 := (f.moduli alpha maxl sp).2,
            a1 := f.sub p1.x mid1.x, b1 := f.sub p1.y mid1.y, c1 := f.sub p2.x mid1.x, d1 := f.sub p2.y mid1.y }
    | _, _, _ => .error .typeError
  | none => .error .attributeError

/-- plate2d_add_k0s_edge_based.py:142-207, with the `y1` of line 160 as in the code -/
noncomputable def edgeIEnv (m : Mesh) (pn : Bool) (alpha : ℝ) (fromArea : Bool) (ed : Edge) (g : Geo) (t1 t2 n1 n2 : ℕ) :
    Except Err (EdgeIEnv Flo) :=
  match ed.other1, ed.other2 with
  | some o1, some o2 => do
    let mid1 := f.mid m t1
    let mid2 := f.mid m t2
    let p1 := xyz m n1; let p2 := xyz m n2
    let Ac1 := f.area3 mid1 p1 p2
    let Ac2 := f.area3 p1 mid2 p2
    let sp ← f.edgeIShear m pn Ac1 Ac2 g.Ac t1 t2 n1 n2 o1 o2
    let maxl ← f.edgeIMaxl m ed g fromArea
    match (m.node n1).index, (m.node n2).index, (m.node o1).index, (m.node o2).index with
    | some i1, some i2, some i3, some i4 =>
      .ok { i1, i2, i3, i4, Ac := g.Ac, Ac1, Ac2,
            E44 := (f.edgeIModuli sp alpha maxl).1, E45 := (f.edgeIModuli sp alpha maxl).2.1, E55 := (f.edgeIModuli sp alpha maxl).2.2,
            a1 := f.sub p1.x mid1.x, b1 := f.sub p1.z mid1.y, c1 := f.sub p2.x mid1.x, d1 := f.sub p2.y mid1.y,
            a2 := f.sub mid2.x p1.x, b2 := f.sub mid2.y p1.y, c2 := f.sub p2.x p1.x, d2 := f.sub p2.y p1.y }
    | _, _, _, _ => .error .typeError
  | _, _ => .error .attributeError

open Classical in
/-- plate2d_add_k0s_edge_based.py:358-362 -/
noncomputable def edgeOrient (m : Mesh) (ed : Edge) (t1 : ℕ) : ℕ × ℕ :=
  if (f.vdot (f.vcross (f.vsub (xyz m ed.n2) (xyz m ed.n1)) (f.vsub (f.mid m t1) (xyz m ed.n1))) zGlobal.flo).lt (.fin 0)
  then (ed.n2, ed.n1) else (ed.n1, ed.n2)

/-- plate2d_add_k0s_edge_based.py:357-368 -/
noncomputable def edgeSEdge (m : Mesh) (g : Key → Geo) (pn : Bool) (alpha : ℝ) (fromArea : Bool) (K : FMat) (k : Key) : FMat × Option Err :=
  let ed := m.edge k
  match ed.trias with
  | [] => (K, some .indexError)
  | [t1] =>
    let (n1, n2) := f.edgeOrient m ed t1
    match f.edgeBEnv m pn alpha fromArea ed (g k) t1 n1 n2 with
    | .error x => (K, some x)
    | .ok env => f.addAll K (edgeBEntries (K := Fo f) env)
  | [t1, t2] =>
    let (n1, n2) := f.edgeOrient m ed t1
    match f.edgeIEnv m pn alpha fromArea ed (g k) t1 t2 n1 n2 with
    | .error x => (K, some x)
    | .ok env => f.addAll K (edgeIEntries (K := Fo f) env)
  | _ => (K, some .notImplemented)

/-- `add_k0s(k0, mesh, prop_from_node, method, alpha, maxl_from_area)`, plate2d_add_k0s.py:5-46 -/
noncomputable def addK0s (K : FMat) (m : Mesh) (g : Key → Geo) (pn : Bool) (method : String) (alpha : ℝ) (fromArea : Bool) : FMat × Option Err :=
  if method = "cell-based" then loop (f.cellSTria m pn alpha fromArea) K m.eids
  else if method = "cell-based-no-smoothing" then loop (f.cellNSTria m pn alpha fromArea) K m.eids
  else if method = "edge-based" then loop (f.edgeSEdge m g pn alpha fromArea) K m.ekeys
  else (K, some .valueError)

end Fmt

/-! ### binary64 -/

/-- the position of the last bit of `x`: 53 significant bits, or the multiples of 2^-1074 -/
noncomputable def ulp64 (x : ℝ) : ℤ := max (Int.log 2 |x| - 52) (-1074)

/-- float64 with the smallest exponent: round to nearest, ties to even, to a multiple of `2 ^ ulp64 x` (gradual underflow) -/
noncomputable def rnd64 (x : ℝ) : ℝ := (rne (x / (2:ℝ) ^ ulp64 x) : ℝ) * (2:ℝ) ^ ulp64 x

theorem rnd64_err (x : ℝ) : |rnd64 x - x| ≤ (2:ℝ)⁻¹ ^ 53 * |x| + (2:ℝ)⁻¹ ^ 1075 := by
  have hp := two_zpow_pos (ulp64 x)
  have h1 : rnd64 x - x = ((rne (x / 2 ^ ulp64 x) : ℝ) - x / 2 ^ ulp64 x) * 2 ^ ulp64 x := by
    rw [sub_mul, div_mul_cancel₀ _ hp.ne']; rfl
  have h2 : |rnd64 x - x| ≤ 1 / 2 * (2:ℝ) ^ ulp64 x := by
    rw [h1, abs_mul, abs_of_pos hp]
    exact mul_le_mul_of_nonneg_right (rne_err _) hp.le
  have hz : (0:ℝ) ≤ (2:ℝ)⁻¹ ^ 53 * |x| := by positivity
  have hz' : (0:ℝ) ≤ (2:ℝ)⁻¹ ^ 1075 := by positivity
  rcases le_total (Int.log 2 |x| - 52) (-1074) with h | h
  · rw [ulp64, max_eq_right h] at h2
    have : (1:ℝ) / 2 * (2:ℝ) ^ (-1074 : ℤ) = (2:ℝ)⁻¹ ^ 1075 := by
      rw [zpow_neg, show (1074 : ℤ) = ((1074 : ℕ) : ℤ) from rfl, zpow_natCast, ← inv_pow, pow_succ' _ 1074, one_div]
    exact h2.trans (this.le.trans (le_add_of_nonneg_left hz))
  · rw [ulp64, max_eq_left h] at h2
    rcases eq_or_ne x 0 with rfl | hx
    · simp [rnd64, rne]
    have h3 : (2:ℝ) ^ Int.log 2 |x| = 2 ^ (Int.log 2 |x| - 52) * 2 ^ 52 := by
      have := zpow_add₀ (two_ne_zero (α := ℝ)) (Int.log 2 |x| - 52) 52
      rw [show Int.log 2 |x| - 52 + 52 = Int.log 2 |x| by omega] at this
      rw [this]; norm_cast
    have h4 := pow_log_le hx
    rw [h3] at h4
    have h5 := mul_le_mul_of_nonneg_left h4 (by positivity : (0:ℝ) ≤ (2:ℝ)⁻¹ ^ 53)
    have h6 : (2:ℝ)⁻¹ ^ 53 * ((2:ℝ) ^ (Int.log 2 |x| - 52) * 2 ^ 52) = 1 / 2 * (2:ℝ) ^ (Int.log 2 |x| - 52) := by ring
    exact h2.trans ((h6.symm.le.trans h5).trans (le_add_of_nonneg_right hz'))

/-- float64 (binary64) of IEEE 754, the numbers of Python and numpy: 53 bits, exponents from -1074 to 971, round to nearest, ties to even. -/
noncomputable def Fmt.binary64 : Fmt where
  u := (2:ℝ)⁻¹ ^ 53
  eta := (2:ℝ)⁻¹ ^ 1075
  big := (2 ^ 53 - 1) * 2 ^ 971
  fl := rnd64
  u_nonneg := by positivity
  eta_nonneg := by positivity
  big_pos := mul_pos (by norm_num) (by positivity)
  err := rnd64_err
  zero := by simp [rnd64, rne]

end Meshless
