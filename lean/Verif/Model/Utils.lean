import Verif.Model.Basic

/-! meshless/utils.py -/

set_option autoImplicit false

namespace Meshless

/-- `x[i]` on a Python list/array of numbers with Python index rules (meshless/utils.py:12). -/
def pyGet (l : List ℝ) (i : ℤ) : Option ℝ := (pyIdx l.length i).bind fun k => l[k]?

/-- Loop body of `area_of_polygon` (meshless/utils.py:11-12): `i` runs over `range(-1, len(x)-1)`, so the loop index
`k = 0 .. len-1` of the model is `i = k - 1`. -/
noncomputable def areaLoop (x y : List ℝ) (acc : Except Err ℝ) (k : ℕ) : Except Err ℝ :=
  match acc with
  | .error e => .error e
  | .ok area =>
    let i : ℤ := (k : ℤ) - 1
    match pyGet x i, pyGet y (i + 1), pyGet y (i - 1) with
    | some a, some b, some c => .ok (area + a * (b - c))
    | _, _, _ => .error .indexError

/-- `area_of_polygon(x, y)`, meshless/utils.py:7-13 -/
noncomputable def areaOfPolygon (x y : List ℝ) : Except Err ℝ :=
  match (List.range x.length).foldl (areaLoop x y) (.ok 0) with
  | .ok area => .ok (|area| / 2)
  | .error e => .error e

/-- `unitvec(vector)`, meshless/utils.py:16-19. Division by a zero norm (NaN in numpy) is 0 here; theorems about it
assume a non-zero vector. -/
noncomputable def unitvec (v : Vec3) : Vec3 := ⟨v.x / v.norm, v.y / v.norm, v.z / v.norm⟩

/-- `area_of_polygon(tmp[:, 0], tmp[:, 1])` for an array of points, as called in
meshless/espim/plate2d_calc_k0.py:113,142,149 and plate2d_add_k0s_cell_based.py:38,49,61. The polygons there have 3 or
more vertices, for which `area_of_polygon` cannot raise (`areaOfPolygon_ok`), so the error branch is 0. -/
noncomputable def polyArea (pts : List Vec3) : ℝ :=
  match areaOfPolygon (pts.map (·.x)) (pts.map (·.y)) with
  | .ok a => a
  | .error _ => 0

end Meshless
