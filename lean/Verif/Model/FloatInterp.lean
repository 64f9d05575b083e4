import Verif.Model.FloatRun

/-! `interpolate_lagrange_3D` in rounded arithmetic; the two-dimensional function is in Model/FloatRun. -/

set_option autoImplicit false

namespace Meshless
namespace Rounding
variable (R : Rounding)

/-- Body of the `p` loop, meshless/interpolate.py:100-106. The factor loop of line 103 runs over `y_nodes`, as in the code. -/
noncomputable def interp3P (z : Val) (ys : List ℝ) (fld : ℕ → ℕ → ℕ → ℝ) (fx fy : Val) (m n : ℕ) :
    List (ℝ × ℕ) → Val → Except Err Val
  | [], field => .ok field
  | (zp, p) :: l, field => do
    let fz ← R.lagLoop z p zp ys.zipIdx (.sc 1)
    let t ← Val.lift2 R.mul fx fy
    let t ← Val.lift2 R.mul t fz
    let t ← Val.lift2 R.mul t (.sc (fld m n p))
    let field' ← Val.lift2 R.add field t
    interp3P z ys fld fx fy m n l field'

/-- The `n` loop of the 3-D version, meshless/interpolate.py:94-106. -/
noncomputable def interp3N (y z : Val) (ys zs : List ℝ) (fld : ℕ → ℕ → ℕ → ℝ) (fx : Val) (m : ℕ) :
    List (ℝ × ℕ) → Val → Except Err Val
  | [], field => .ok field
  | (yn, n) :: l, field => do
    let fy ← R.lagLoop y n yn ys.zipIdx (.sc 1)
    let field' ← R.interp3P z ys fld fx fy m n zs.zipIdx field
    interp3N y z ys zs fld fx m l field'

/-- The `m` loop of the 3-D version, meshless/interpolate.py:88-106. -/
noncomputable def interp3M (x y z : Val) (xs ys zs : List ℝ) (fld : ℕ → ℕ → ℕ → ℝ) :
    List (ℝ × ℕ) → Val → Except Err Val
  | [], field => .ok field
  | (xm, m) :: l, field => do
    let fx ← R.lagLoop x m xm xs.zipIdx (.sc 1)
    let field' ← R.interp3N y z ys zs fld fx m ys.zipIdx field
    interp3M x y z xs ys zs fld l field'

/-- `interpolate_lagrange_3D`, meshless/interpolate.py:52-107. -/
noncomputable def interp3 (x y z : Val) (xs ys zs : List ℝ) (field : Arr) : Except Err Val :=
  match field.shape with
  | [a, b, c] =>
    if a = xs.length then
      if b = ys.length then
        if c = zs.length then
          R.interp3M x y z xs ys zs (fun m n p => field.get [m, n, p]) xs.zipIdx (.sc 0)
        else .error .assertion
      else .error .assertion
    else .error .assertion
  | _ => .error .assertion

end Rounding
end Meshless
