import Mathlib.Analysis.Real.Sqrt
import Mathlib.Data.Finset.Basic

/-! Base types of the model: 3-vectors (`numpy` arrays of length 3), Python errors, Python indexing and the dense matrix
`k0`/`kG` with in-place `+=`. -/

set_option autoImplicit false

namespace Meshless

/-- Python exception kinds raised by the modelled code (by the statement cited where each is used), e.g. read_mesh.py:40-41, interpolate.py:31-33 -/
inductive Err
  | valueError | keyError | indexError | typeError | notImplemented | runtimeError | attributeError | assertion | unboundLocal
  deriving DecidableEq, Repr

/-- A numpy array of shape (3,), such as `node.xyz` (meshless/espim/classes.py:5) or the result of `np.cross`. -/
@[ext] structure Vec3 where
  (x y z : ℝ)

namespace Vec3

/-- numpy elementwise `a - b`, used e.g. in meshless/espim/plate2d_calc_k0.py:71,74 -/
noncomputable def sub (a b : Vec3) : Vec3 := ⟨a.x - b.x, a.y - b.y, a.z - b.z⟩
/-- numpy elementwise `a + b`, used in meshless/espim/classes.py:5 -/
noncomputable def add (a b : Vec3) : Vec3 := ⟨a.x + b.x, a.y + b.y, a.z + b.z⟩
/-- numpy `c * a` with a scalar `c`, used in meshless/espim/classes.py:5 -/
noncomputable def smul (c : ℝ) (a : Vec3) : Vec3 := ⟨c * a.x, c * a.y, c * a.z⟩
/-- `np.cross`, used in meshless/espim/plate2d_calc_k0.py:71,75,83,91,98,105 -/
noncomputable def cross (a b : Vec3) : Vec3 :=
  ⟨a.y * b.z - a.z * b.y, a.z * b.x - a.x * b.z, a.x * b.y - a.y * b.x⟩
/-- `np.dot` of two 3-vectors, used in meshless/espim/plate2d_calc_k0.py:71 -/
noncomputable def dot (a b : Vec3) : ℝ := a.x * b.x + a.y * b.y + a.z * b.z
/-- `np.linalg.norm(v)` (meshless/utils.py:19) and `np.sqrt((v**2).sum())`
(meshless/espim/plate2d_calc_k0.py:78,85,93,100,107), `np.sum(v**2)**0.5` (plate2d_add_k0s_cell_based.py:83) -/
noncomputable def norm (a : Vec3) : ℝ := Real.sqrt (a.x ^ 2 + a.y ^ 2 + a.z ^ 2)

end Vec3

/-- `ZGLOBAL = np.array([0, 0, 1])`, meshless/constants.py -/
noncomputable def zGlobal : Vec3 := ⟨0, 0, 1⟩

/-- Python/numpy indexing rule for a sequence of length `n`: non-negative indices below `n`, negative ones from the
end, everything else IndexError (`none`). Used by `nodes[i1]` (meshless/espim/read_mesh.py:108-110), by `k0[r, c] += v`
(meshless/espim/plate2d_calc_k0.py:253-508, where the dummy index is -1) and by `x[i]` (meshless/utils.py:12). -/
def pyIdx (n : ℕ) (i : ℤ) : Option ℕ :=
  if 0 ≤ i then (if i < n then some i.toNat else none)
  else (if -(n : ℤ) ≤ i then some (i + n).toNat else none)

/-- A square dense `numpy` matrix (`np.zeros((n*dof, n*dof))`, meshless/espim/plate2d_calc_k0.py:135,
plate2d_calc_kG.py:36). Entries outside `dim` are not observable. -/
structure Mat where
  dim : ℕ
  get : ℕ → ℕ → ℝ

namespace Mat

/-- `np.zeros((n, n))`, meshless/espim/plate2d_calc_k0.py:135, plate2d_calc_kG.py:36 -/
def zeros (n : ℕ) : Mat := ⟨n, fun _ _ => 0⟩

/-- The effect of `k[r, c] += v` once `r`, `c` are valid positions, plate2d_calc_k0.py:253-508, plate2d_calc_kG.py:159-174, plate2d_add_k0s_*.py -/
noncomputable def bump (M : Mat) (r c : ℕ) (v : ℝ) : Mat :=
  ⟨M.dim, fun i j => if i = r ∧ j = c then M.get i j + v else M.get i j⟩

/-- `k[r, c] += v` with Python index rules, e.g. meshless/espim/plate2d_calc_k0.py:253 -/
noncomputable def addAt (M : Mat) (r c : ℤ) (v : ℝ) : Except Err Mat :=
  match pyIdx M.dim r, pyIdx M.dim c with
  | some i, some j => .ok (M.bump i j v)
  | _, _ => .error .indexError

/-- A straight-line block of `k[r, c] += v` statements; on an IndexError the writes done so far stay (numpy arrays are
modified in place). meshless/espim/plate2d_calc_k0.py:253-508 and the blocks of the other files. -/
noncomputable def addAll (M : Mat) : List (ℤ × ℤ × ℝ) → Mat × Option Err
  | [] => (M, none)
  | (r, c, v) :: es =>
    match M.addAt r c v with
    | .ok M' => M'.addAll es
    | .error e => (M, some e)

end Mat
end Meshless
