import Verif.Model.K0
import Verif.Model.Gen.KG

/-! meshless/espim/plate2d_calc_kG.py -/

set_option autoImplicit false

namespace Meshless

/-- `d[i*dof: i*dof+5]` for a non-negative `i`, plate2d_calc_kG.py:128-131; if the slices differ in length,
`np.array([d1, d2, d3, d4])` (line 134) is ragged (ValueError); if they are equally long but too short, one of `dc[:, 0]` ...
`dc[:, 4]` (lines 137-140) is out of range (IndexError). -/
def dSlice (d : List ℝ) (i : ℤ) : List ℝ := (d.drop (i.toNat * 5)).take 5

/-- Column `r` of `dc = np.dot([f1, f2, f3, f4], [d1, d2, d3, d4])` in row `f`, plate2d_calc_kG.py:134-140 -/
noncomputable def dcAt (f : List ℝ) (d1 d2 d3 d4 : List ℝ) (r : ℕ) : ℝ :=
  wAt f 0 * d1.getD r 0 + wAt f 1 * d2.getD r 0 + wAt f 2 * d3.getD r 0 + wAt f 3 * d4.getD r 0

/-- `np.dot(A, em)` component, plate2d_calc_kG.py:156 -/
noncomputable def dot3 (A : Fin 3 → Fin 3 → ℝ) (e : Fin 3 → ℝ) (i : Fin 3) : ℝ := A i 0 * e 0 + A i 1 * e 1 + A i 2 * e 2

/-- The local variables of one edge before the `kG[...] +=` block, plate2d_calc_kG.py:39-156 -/
noncomputable def kGEnv (m : Mesh) (d : List ℝ) (pn : Bool) (ed : Edge) : Except Err (KGEnv ℝ) :=
  if ed.trias = [] then .error .indexError
  else if 2 < ed.trias.length then .error .runtimeError
  else if !iptsIndexed m ed.ipts then .error .typeError
  else
    let ix0 := iptIndices (nodeIdx m) ed.ipts
    let ix := if ed.ipts.length = 3 then ix0 ++ [0] else ix0
    match ix with
    | [i1, i2, i3, i4] =>
      match ed.ipts with
      | p1 :: p2 :: p3 :: rest =>
        let f1 := weightRow (nodeIdx m) ix p1
        let f2 := weightRow (nodeIdx m) ix p2
        let f3 := weightRow (nodeIdx m) ix p3
        let f4 := match rest with | p4 :: _ => weightRow (nodeIdx m) ix p4 | [] => List.replicate 4 0
        let nx4 := match rest with | p4 :: _ => p4.nx | [] => 0
        let ny4 := match rest with | p4 :: _ => p4.ny | [] => 0
        let le4 := match rest with | p4 :: _ => p4.le | [] => 0
        match ed.Ac, edgeProp m pn ed Lam.A, edgeProp m pn ed Lam.B with
        | some Ac, .ok A, .ok B =>
          let d1 := dSlice d i1; let d2 := dSlice d i2; let d3 := dSlice d i3; let d4 := dSlice d i4
          if d1.length = 5 ∧ d2.length = 5 ∧ d3.length = 5 ∧ d4.length = 5 then
            let c := fun (f : List ℝ) r => dcAt f d1 d2 d3 d4 r
            -- lines 142-154
            let sx := fun r => p1.le * p1.nx * c f1 r + p2.le * p2.nx * c f2 r + p3.le * p3.nx * c f3 r + le4 * nx4 * c f4 r
            let sy := fun r => p1.le * p1.ny * c f1 r + p2.le * p2.ny * c f2 r + p3.le * p3.ny * c f3 r + le4 * ny4 * c f4 r
            let sxy := fun r s =>
              p1.le * (p1.ny * c f1 r + p1.nx * c f1 s) + p2.le * (p2.ny * c f2 r + p2.nx * c f2 s)
              + p3.le * (p3.ny * c f3 r + p3.nx * c f3 s) + le4 * (ny4 * c f4 r + nx4 * c f4 s)
            let em : Fin 3 → ℝ := ![1 / Ac * sx 0, 1 / Ac * sy 1, 1 / Ac * sxy 0 1]
            let eb : Fin 3 → ℝ := ![1 / Ac * sx 3, 1 / Ac * sy 4, 1 / Ac * sxy 3 4]
            let N := fun i => dot3 A em i + dot3 B eb i
            .ok { i1, i2, i3, i4, Ac, Nxx := N 0, Nyy := N 1, Nxy := N 2
                  f11 := wAt f1 0, f12 := wAt f1 1, f13 := wAt f1 2, f14 := wAt f1 3,
                  f21 := wAt f2 0, f22 := wAt f2 1, f23 := wAt f2 2, f24 := wAt f2 3,
                  f31 := wAt f3 0, f32 := wAt f3 1, f33 := wAt f3 2, f34 := wAt f3 3,
                  f41 := wAt f4 0, f42 := wAt f4 1, f43 := wAt f4 2, f44 := wAt f4 3,
                  le1 := p1.le, le2 := p2.le, le3 := p3.le, le4,
                  nx1 := p1.nx, nx2 := p2.nx, nx3 := p3.nx, nx4,
                  ny1 := p1.ny, ny2 := p2.ny, ny3 := p3.ny, ny4 }
          else if d1.length = d2.length ∧ d1.length = d3.length ∧ d1.length = d4.length then .error .indexError
          else .error .valueError
        | _, .error e, _ => .error e
        | _, _, .error e => .error e
        | none, _, _ => .error .typeError
      | _ => .error .indexError
    | _ => .error .valueError

/-- One iteration of the loop, plate2d_calc_kG.py:38-174 -/
noncomputable def kGEdge (m : Mesh) (d : List ℝ) (pn : Bool) (K : Mat) (k : Key) : Mat × Option Err :=
  match kGEnv m d pn (m.edge k) with
  | .error e => (K, some e)
  | .ok env => K.addAll (kGEntries env)

/-- `calc_kG(d, mesh, prop_from_node)`, plate2d_calc_kG.py:9-177. The mesh is only read. -/
noncomputable def calcKG (m : Mesh) (d : List ℝ) (pn : Bool) : Except Err Mat :=
  match matLoop (kGEdge m d pn) (Mat.zeros (d.length / 5 * 5)) m.ekeys with
  | (K, none) => .ok K
  | (_, some e) => .error e

end Meshless
