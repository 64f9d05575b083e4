import Verif.Model.Basic

/-! meshless/interpolate.py -/

set_option autoImplicit false

namespace Meshless

/-- A query coordinate or intermediate value: Python/numpy scalar or 1-D array, the parameters of interpolate.py:4,52 -/
inductive Val
  | sc (a : ℝ)
  | vec (l : List ℝ)

namespace Val

/-- numpy broadcasting of a binary elementwise operation on scalars and 1-D arrays (length-1 arrays broadcast, other
length mismatches raise ValueError). Used by every arithmetic operation in meshless/interpolate.py:36-49,88-107. -/
def lift2 (f : ℝ → ℝ → ℝ) : Val → Val → Except Err Val
  | .sc a, .sc b => .ok (.sc (f a b))
  | .sc a, .vec l => .ok (.vec (l.map (f a)))
  | .vec l, .sc b => .ok (.vec (l.map fun a => f a b))
  | .vec l, .vec l' =>
    if l.length = l'.length then .ok (.vec (List.zipWith f l l'))
    else match l, l' with
      | [a], l' => .ok (.vec (l'.map (f a)))
      | l, [b] => .ok (.vec (l.map fun a => f a b))
      | _, _ => .error .valueError

end Val

/-- A numpy array: shape and entries. Used for `field_nodes` (meshless/interpolate.py:30-33). -/
structure Arr where
  shape : List ℕ
  get : List ℕ → ℝ

/-- The factor loop `fx = 1; for i, xi in enumerate(x_nodes): if i != m and (xm - xi) != 0: fx *= (x - xi)/(xm - xi)`,
meshless/interpolate.py:38-41 (and 44-47, 90-93, 96-99, 102-105). `l` is `enumerate(nodes)`. -/
noncomputable def lagLoop (x : Val) (m : ℕ) (xm : ℝ) : List (ℝ × ℕ) → Val → Except Err Val
  | [], fx => .ok fx
  | (xi, i) :: l, fx =>
    if i ≠ m ∧ xm - xi ≠ 0 then do
      let num ← Val.lift2 (· - ·) x (.sc xi)
      let q ← Val.lift2 (· / ·) num (.sc (xm - xi))
      let fx' ← Val.lift2 (· * ·) fx q
      lagLoop x m xm l fx'
    else lagLoop x m xm l fx

/-- Body of the `n` loop, meshless/interpolate.py:42-48. -/
noncomputable def interp2Inner (y : Val) (ys : List ℝ) (fld : ℕ → ℕ → ℝ) (fx : Val) (m : ℕ) :
    List (ℝ × ℕ) → Val → Except Err Val
  | [], field => .ok field
  | (yn, n) :: l, field => do
    let fy ← lagLoop y n yn ys.zipIdx (.sc 1)
    let t ← Val.lift2 (· * ·) fx fy
    let t ← Val.lift2 (· * ·) t (.sc (fld m n))
    let field' ← Val.lift2 (· + ·) field t
    interp2Inner y ys fld fx m l field'

/-- The `m` loop, meshless/interpolate.py:36-48. -/
noncomputable def interp2Outer (x y : Val) (xs ys : List ℝ) (fld : ℕ → ℕ → ℝ) :
    List (ℝ × ℕ) → Val → Except Err Val
  | [], field => .ok field
  | (xm, m) :: l, field => do
    let fx ← lagLoop x m xm xs.zipIdx (.sc 1)
    let field' ← interp2Inner y ys fld fx m ys.zipIdx field
    interp2Outer x y xs ys fld l field'

/-- `interpolate_lagrange_2D`, meshless/interpolate.py:4-49. `x_nodes`, `y_nodes` are 1-D. -/
noncomputable def interp2 (x y : Val) (xs ys : List ℝ) (field : Arr) : Except Err Val :=
  match field.shape with
  | [a, b] =>
    if a = xs.length then
      if b = ys.length then
        interp2Outer x y xs ys (fun m n => field.get [m, n]) xs.zipIdx (.sc 0)
      else .error .assertion
    else .error .assertion
  | _ => .error .assertion

/-- Body of the `p` loop, meshless/interpolate.py:100-106. The factor loop of line 103 runs over `y_nodes`, not
`z_nodes`: kept as in the code. -/
noncomputable def interp3P (z : Val) (ys : List ℝ) (fld : ℕ → ℕ → ℕ → ℝ) (fx fy : Val) (m n : ℕ) :
    List (ℝ × ℕ) → Val → Except Err Val
  | [], field => .ok field
  | (zp, p) :: l, field => do
    let fz ← lagLoop z p zp ys.zipIdx (.sc 1)
    let t ← Val.lift2 (· * ·) fx fy
    let t ← Val.lift2 (· * ·) t fz
    let t ← Val.lift2 (· * ·) t (.sc (fld m n p))
    let field' ← Val.lift2 (· + ·) field t
    interp3P z ys fld fx fy m n l field'

/-- The `n` loop of the 3-D version, meshless/interpolate.py:94-106. -/
noncomputable def interp3N (y z : Val) (ys zs : List ℝ) (fld : ℕ → ℕ → ℕ → ℝ) (fx : Val) (m : ℕ) :
    List (ℝ × ℕ) → Val → Except Err Val
  | [], field => .ok field
  | (yn, n) :: l, field => do
    let fy ← lagLoop y n yn ys.zipIdx (.sc 1)
    let field' ← interp3P z ys fld fx fy m n zs.zipIdx field
    interp3N y z ys zs fld fx m l field'

/-- The `m` loop of the 3-D version, meshless/interpolate.py:88-106. -/
noncomputable def interp3M (x y z : Val) (xs ys zs : List ℝ) (fld : ℕ → ℕ → ℕ → ℝ) :
    List (ℝ × ℕ) → Val → Except Err Val
  | [], field => .ok field
  | (xm, m) :: l, field => do
    let fx ← lagLoop x m xm xs.zipIdx (.sc 1)
    let field' ← interp3N y z ys zs fld fx m ys.zipIdx field
    interp3M x y z xs ys zs fld l field'

/-- `interpolate_lagrange_3D`, meshless/interpolate.py:52-107. -/
noncomputable def interp3 (x y z : Val) (xs ys zs : List ℝ) (field : Arr) : Except Err Val :=
  match field.shape with
  | [a, b, c] =>
    if a = xs.length then
      if b = ys.length then
        if c = zs.length then
          interp3M x y z xs ys zs (fun m n p => field.get [m, n, p]) xs.zipIdx (.sc 0)
        else .error .assertion
      else .error .assertion
    else .error .assertion
  | _ => .error .assertion

end Meshless
