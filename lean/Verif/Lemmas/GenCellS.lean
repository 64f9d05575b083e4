import Verif.Lemmas.GenKG
import Verif.Model.Gen.CellS

/-! Written by /verif/tools/genlem.py. -/

set_option autoImplicit false

namespace Meshless

noncomputable def CellSEnv.gx_i1_2 (e : CellSEnv ℝ) : ℝ := e.Ac1 * (e.d1 / (2 * e.Ac1) + 0.166666666666667 * (e.b1 - e.d1) / e.Ac1) + e.Ac3 * (-e.b3 / (2 * e.Ac3) + 0.166666666666667 * (e.b3 - e.d3) / e.Ac3) + 0.166666666666667 * e.b2 - 0.166666666666667 * e.d2
noncomputable def CellSEnv.gy_i1_2 (e : CellSEnv ℝ) : ℝ := e.Ac1 * (-e.c1 / (2 * e.Ac1) + 0.166666666666667 * (-e.a1 + e.c1) / e.Ac1) + e.Ac3 * (e.a3 / (2 * e.Ac3) + 0.166666666666667 * (-e.a3 + e.c3) / e.Ac3) - 0.166666666666667 * e.a2 + 0.166666666666667 * e.c2
private theorem gx_i1_2_def (e : CellSEnv ℝ) : e.Ac1 * (e.d1 / (2 * e.Ac1) + 0.166666666666667 * (e.b1 - e.d1) / e.Ac1) + e.Ac3 * (-e.b3 / (2 * e.Ac3) + 0.166666666666667 * (e.b3 - e.d3) / e.Ac3) + 0.166666666666667 * e.b2 - 0.166666666666667 * e.d2 = e.gx_i1_2 := rfl
private theorem gy_i1_2_def (e : CellSEnv ℝ) : e.Ac1 * (-e.c1 / (2 * e.Ac1) + 0.166666666666667 * (-e.a1 + e.c1) / e.Ac1) + e.Ac3 * (e.a3 / (2 * e.Ac3) + 0.166666666666667 * (-e.a3 + e.c3) / e.Ac3) - 0.166666666666667 * e.a2 + 0.166666666666667 * e.c2 = e.gy_i1_2 := rfl
noncomputable def CellSEnv.gx_i1_3 (e : CellSEnv ℝ) : ℝ := e.Ac1 * (0.166666666666667 + e.a1 * e.d1 / (4 * e.Ac1)) + 0.166666666666667 * e.Ac2 + e.Ac3 * (0.166666666666667 - e.b3 * e.c3 / (4 * e.Ac3))
noncomputable def CellSEnv.gy_i1_3 (e : CellSEnv ℝ) : ℝ := -e.a1 * e.c1 / 4 + e.a3 * e.c3 / 4
private theorem gx_i1_3_def (e : CellSEnv ℝ) : e.Ac1 * (0.166666666666667 + e.a1 * e.d1 / (4 * e.Ac1)) + 0.166666666666667 * e.Ac2 + e.Ac3 * (0.166666666666667 - e.b3 * e.c3 / (4 * e.Ac3)) = e.gx_i1_3 := rfl
private theorem gy_i1_3_def (e : CellSEnv ℝ) : -e.a1 * e.c1 / 4 + e.a3 * e.c3 / 4 = e.gy_i1_3 := rfl
noncomputable def CellSEnv.gx_i1_4 (e : CellSEnv ℝ) : ℝ := e.b1 * e.d1 / 4 - e.b3 * e.d3 / 4
noncomputable def CellSEnv.gy_i1_4 (e : CellSEnv ℝ) : ℝ := e.Ac1 * (0.166666666666667 - e.b1 * e.c1 / (4 * e.Ac1)) + 0.166666666666667 * e.Ac2 + e.Ac3 * (0.166666666666667 + e.a3 * e.d3 / (4 * e.Ac3))
private theorem gx_i1_4_def (e : CellSEnv ℝ) : e.b1 * e.d1 / 4 - e.b3 * e.d3 / 4 = e.gx_i1_4 := rfl
private theorem gy_i1_4_def (e : CellSEnv ℝ) : e.Ac1 * (0.166666666666667 - e.b1 * e.c1 / (4 * e.Ac1)) + 0.166666666666667 * e.Ac2 + e.Ac3 * (0.166666666666667 + e.a3 * e.d3 / (4 * e.Ac3)) = e.gy_i1_4 := rfl
noncomputable def CellSEnv.gx_i2_2 (e : CellSEnv ℝ) : ℝ := e.Ac1 * (-e.b1 / (2 * e.Ac1) + 0.166666666666667 * (e.b1 - e.d1) / e.Ac1) + e.Ac2 * (e.d2 / (2 * e.Ac2) + 0.166666666666667 * (e.b2 - e.d2) / e.Ac2) + 0.166666666666667 * e.b3 - 0.166666666666667 * e.d3
noncomputable def CellSEnv.gy_i2_2 (e : CellSEnv ℝ) : ℝ := e.Ac1 * (e.a1 / (2 * e.Ac1) + 0.166666666666667 * (-e.a1 + e.c1) / e.Ac1) + e.Ac2 * (-e.c2 / (2 * e.Ac2) + 0.166666666666667 * (-e.a2 + e.c2) / e.Ac2) - 0.166666666666667 * e.a3 + 0.166666666666667 * e.c3
private theorem gx_i2_2_def (e : CellSEnv ℝ) : e.Ac1 * (-e.b1 / (2 * e.Ac1) + 0.166666666666667 * (e.b1 - e.d1) / e.Ac1) + e.Ac2 * (e.d2 / (2 * e.Ac2) + 0.166666666666667 * (e.b2 - e.d2) / e.Ac2) + 0.166666666666667 * e.b3 - 0.166666666666667 * e.d3 = e.gx_i2_2 := rfl
private theorem gy_i2_2_def (e : CellSEnv ℝ) : e.Ac1 * (e.a1 / (2 * e.Ac1) + 0.166666666666667 * (-e.a1 + e.c1) / e.Ac1) + e.Ac2 * (-e.c2 / (2 * e.Ac2) + 0.166666666666667 * (-e.a2 + e.c2) / e.Ac2) - 0.166666666666667 * e.a3 + 0.166666666666667 * e.c3 = e.gy_i2_2 := rfl
noncomputable def CellSEnv.gx_i2_3 (e : CellSEnv ℝ) : ℝ := e.Ac1 * (0.166666666666667 - e.b1 * e.c1 / (4 * e.Ac1)) + e.Ac2 * (0.166666666666667 + e.a2 * e.d2 / (4 * e.Ac2)) + 0.166666666666667 * e.Ac3
noncomputable def CellSEnv.gy_i2_3 (e : CellSEnv ℝ) : ℝ := e.a1 * e.c1 / 4 - e.a2 * e.c2 / 4
private theorem gx_i2_3_def (e : CellSEnv ℝ) : e.Ac1 * (0.166666666666667 - e.b1 * e.c1 / (4 * e.Ac1)) + e.Ac2 * (0.166666666666667 + e.a2 * e.d2 / (4 * e.Ac2)) + 0.166666666666667 * e.Ac3 = e.gx_i2_3 := rfl
private theorem gy_i2_3_def (e : CellSEnv ℝ) : e.a1 * e.c1 / 4 - e.a2 * e.c2 / 4 = e.gy_i2_3 := rfl
noncomputable def CellSEnv.gx_i2_4 (e : CellSEnv ℝ) : ℝ := -e.b1 * e.d1 / 4 + e.b2 * e.d2 / 4
noncomputable def CellSEnv.gy_i2_4 (e : CellSEnv ℝ) : ℝ := e.Ac1 * (0.166666666666667 + e.a1 * e.d1 / (4 * e.Ac1)) + e.Ac2 * (0.166666666666667 - e.b2 * e.c2 / (4 * e.Ac2)) + 0.166666666666667 * e.Ac3
private theorem gx_i2_4_def (e : CellSEnv ℝ) : -e.b1 * e.d1 / 4 + e.b2 * e.d2 / 4 = e.gx_i2_4 := rfl
private theorem gy_i2_4_def (e : CellSEnv ℝ) : e.Ac1 * (0.166666666666667 + e.a1 * e.d1 / (4 * e.Ac1)) + e.Ac2 * (0.166666666666667 - e.b2 * e.c2 / (4 * e.Ac2)) + 0.166666666666667 * e.Ac3 = e.gy_i2_4 := rfl
noncomputable def CellSEnv.gx_i3_2 (e : CellSEnv ℝ) : ℝ := e.Ac2 * (-e.b2 / (2 * e.Ac2) + 0.166666666666667 * (e.b2 - e.d2) / e.Ac2) + e.Ac3 * (e.d3 / (2 * e.Ac3) + 0.166666666666667 * (e.b3 - e.d3) / e.Ac3) + 0.166666666666667 * e.b1 - 0.166666666666667 * e.d1
noncomputable def CellSEnv.gy_i3_2 (e : CellSEnv ℝ) : ℝ := e.Ac2 * (e.a2 / (2 * e.Ac2) + 0.166666666666667 * (-e.a2 + e.c2) / e.Ac2) + e.Ac3 * (-e.c3 / (2 * e.Ac3) + 0.166666666666667 * (-e.a3 + e.c3) / e.Ac3) - 0.166666666666667 * e.a1 + 0.166666666666667 * e.c1
private theorem gx_i3_2_def (e : CellSEnv ℝ) : e.Ac2 * (-e.b2 / (2 * e.Ac2) + 0.166666666666667 * (e.b2 - e.d2) / e.Ac2) + e.Ac3 * (e.d3 / (2 * e.Ac3) + 0.166666666666667 * (e.b3 - e.d3) / e.Ac3) + 0.166666666666667 * e.b1 - 0.166666666666667 * e.d1 = e.gx_i3_2 := rfl
private theorem gy_i3_2_def (e : CellSEnv ℝ) : e.Ac2 * (e.a2 / (2 * e.Ac2) + 0.166666666666667 * (-e.a2 + e.c2) / e.Ac2) + e.Ac3 * (-e.c3 / (2 * e.Ac3) + 0.166666666666667 * (-e.a3 + e.c3) / e.Ac3) - 0.166666666666667 * e.a1 + 0.166666666666667 * e.c1 = e.gy_i3_2 := rfl
noncomputable def CellSEnv.gx_i3_3 (e : CellSEnv ℝ) : ℝ := 0.166666666666667 * e.Ac1 + e.Ac2 * (0.166666666666667 - e.b2 * e.c2 / (4 * e.Ac2)) + e.Ac3 * (0.166666666666667 + e.a3 * e.d3 / (4 * e.Ac3))
noncomputable def CellSEnv.gy_i3_3 (e : CellSEnv ℝ) : ℝ := e.a2 * e.c2 / 4 - e.a3 * e.c3 / 4
private theorem gx_i3_3_def (e : CellSEnv ℝ) : 0.166666666666667 * e.Ac1 + e.Ac2 * (0.166666666666667 - e.b2 * e.c2 / (4 * e.Ac2)) + e.Ac3 * (0.166666666666667 + e.a3 * e.d3 / (4 * e.Ac3)) = e.gx_i3_3 := rfl
private theorem gy_i3_3_def (e : CellSEnv ℝ) : e.a2 * e.c2 / 4 - e.a3 * e.c3 / 4 = e.gy_i3_3 := rfl
noncomputable def CellSEnv.gx_i3_4 (e : CellSEnv ℝ) : ℝ := -e.b2 * e.d2 / 4 + e.b3 * e.d3 / 4
noncomputable def CellSEnv.gy_i3_4 (e : CellSEnv ℝ) : ℝ := 0.166666666666667 * e.Ac1 + e.Ac2 * (0.166666666666667 + e.a2 * e.d2 / (4 * e.Ac2)) + e.Ac3 * (0.166666666666667 - e.b3 * e.c3 / (4 * e.Ac3))
private theorem gx_i3_4_def (e : CellSEnv ℝ) : -e.b2 * e.d2 / 4 + e.b3 * e.d3 / 4 = e.gx_i3_4 := rfl
private theorem gy_i3_4_def (e : CellSEnv ℝ) : 0.166666666666667 * e.Ac1 + e.Ac2 * (0.166666666666667 + e.a2 * e.d2 / (4 * e.Ac2)) + e.Ac3 * (0.166666666666667 - e.b3 * e.c3 / (4 * e.Ac3)) = e.gy_i3_4 := rfl

/-- shear columns of the nine dofs, times the area -/
noncomputable def cellSDofs (e : CellSEnv ℝ) : List (ℤ × (Fin 2 → ℝ)) := [
  (e.i1 * 5 + 2, v2 e.gx_i1_2 e.gy_i1_2),
  (e.i1 * 5 + 3, v2 e.gx_i1_3 e.gy_i1_3),
  (e.i1 * 5 + 4, v2 e.gx_i1_4 e.gy_i1_4),
  (e.i2 * 5 + 2, v2 e.gx_i2_2 e.gy_i2_2),
  (e.i2 * 5 + 3, v2 e.gx_i2_3 e.gy_i2_3),
  (e.i2 * 5 + 4, v2 e.gx_i2_4 e.gy_i2_4),
  (e.i3 * 5 + 2, v2 e.gx_i3_2 e.gy_i3_2),
  (e.i3 * 5 + 3, v2 e.gx_i3_3 e.gy_i3_3),
  (e.i3 * 5 + 4, v2 e.gx_i3_4 e.gy_i3_4)]

private theorem row_i1_2 (e : CellSEnv ℝ) : cellS_i1_2 e = (cellSDofs e).map fun b =>
    (e.i1 * 5 + 2, b.1, ∑ p, ∑ q, v2 e.gx_i1_2 e.gy_i1_2 p * (m2 e.E44 e.E45 e.E55 p q / e.Ac) * b.2 q) := by
  simp only [cellS_i1_2, gx_i1_2_def, gy_i1_2_def, gx_i1_3_def, gy_i1_3_def, gx_i1_4_def, gy_i1_4_def, gx_i2_2_def, gy_i2_2_def, gx_i2_3_def, gy_i2_3_def, gx_i2_4_def, gy_i2_4_def, gx_i3_2_def, gy_i3_2_def, gx_i3_3_def, gy_i3_3_def, gx_i3_4_def, gy_i3_4_def, cellSDofs,
    List.map_cons, List.map_nil, Fin.sum_univ_two, v2_0, v2_1, m2_00, m2_01, m2_10, m2_11]
  refine congrArg₂ List.cons ?_ (congrArg₂ List.cons ?_ (congrArg₂ List.cons ?_ (congrArg₂ List.cons ?_ (congrArg₂ List.cons ?_ (congrArg₂ List.cons ?_ (congrArg₂ List.cons ?_ (congrArg₂ List.cons ?_ (congrArg₂ List.cons ?_ rfl)))))))) <;>
  refine Prod.ext rfl (Prod.ext rfl ?_) <;> simp only [] <;> ring

private theorem row_i1_3 (e : CellSEnv ℝ) : cellS_i1_3 e = (cellSDofs e).map fun b =>
    (e.i1 * 5 + 3, b.1, ∑ p, ∑ q, v2 e.gx_i1_3 e.gy_i1_3 p * (m2 e.E44 e.E45 e.E55 p q / e.Ac) * b.2 q) := by
  simp only [cellS_i1_3, gx_i1_2_def, gy_i1_2_def, gx_i1_3_def, gy_i1_3_def, gx_i1_4_def, gy_i1_4_def, gx_i2_2_def, gy_i2_2_def, gx_i2_3_def, gy_i2_3_def, gx_i2_4_def, gy_i2_4_def, gx_i3_2_def, gy_i3_2_def, gx_i3_3_def, gy_i3_3_def, gx_i3_4_def, gy_i3_4_def, cellSDofs,
    List.map_cons, List.map_nil, Fin.sum_univ_two, v2_0, v2_1, m2_00, m2_01, m2_10, m2_11]
  refine congrArg₂ List.cons ?_ (congrArg₂ List.cons ?_ (congrArg₂ List.cons ?_ (congrArg₂ List.cons ?_ (congrArg₂ List.cons ?_ (congrArg₂ List.cons ?_ (congrArg₂ List.cons ?_ (congrArg₂ List.cons ?_ (congrArg₂ List.cons ?_ rfl)))))))) <;>
  refine Prod.ext rfl (Prod.ext rfl ?_) <;> simp only [] <;> ring

private theorem row_i1_4 (e : CellSEnv ℝ) : cellS_i1_4 e = (cellSDofs e).map fun b =>
    (e.i1 * 5 + 4, b.1, ∑ p, ∑ q, v2 e.gx_i1_4 e.gy_i1_4 p * (m2 e.E44 e.E45 e.E55 p q / e.Ac) * b.2 q) := by
  simp only [cellS_i1_4, gx_i1_2_def, gy_i1_2_def, gx_i1_3_def, gy_i1_3_def, gx_i1_4_def, gy_i1_4_def, gx_i2_2_def, gy_i2_2_def, gx_i2_3_def, gy_i2_3_def, gx_i2_4_def, gy_i2_4_def, gx_i3_2_def, gy_i3_2_def, gx_i3_3_def, gy_i3_3_def, gx_i3_4_def, gy_i3_4_def, cellSDofs,
    List.map_cons, List.map_nil, Fin.sum_univ_two, v2_0, v2_1, m2_00, m2_01, m2_10, m2_11]
  refine congrArg₂ List.cons ?_ (congrArg₂ List.cons ?_ (congrArg₂ List.cons ?_ (congrArg₂ List.cons ?_ (congrArg₂ List.cons ?_ (congrArg₂ List.cons ?_ (congrArg₂ List.cons ?_ (congrArg₂ List.cons ?_ (congrArg₂ List.cons ?_ rfl)))))))) <;>
  refine Prod.ext rfl (Prod.ext rfl ?_) <;> simp only [] <;> ring

private theorem row_i2_2 (e : CellSEnv ℝ) : cellS_i2_2 e = (cellSDofs e).map fun b =>
    (e.i2 * 5 + 2, b.1, ∑ p, ∑ q, v2 e.gx_i2_2 e.gy_i2_2 p * (m2 e.E44 e.E45 e.E55 p q / e.Ac) * b.2 q) := by
  simp only [cellS_i2_2, gx_i1_2_def, gy_i1_2_def, gx_i1_3_def, gy_i1_3_def, gx_i1_4_def, gy_i1_4_def, gx_i2_2_def, gy_i2_2_def, gx_i2_3_def, gy_i2_3_def, gx_i2_4_def, gy_i2_4_def, gx_i3_2_def, gy_i3_2_def, gx_i3_3_def, gy_i3_3_def, gx_i3_4_def, gy_i3_4_def, cellSDofs,
    List.map_cons, List.map_nil, Fin.sum_univ_two, v2_0, v2_1, m2_00, m2_01, m2_10, m2_11]
  refine congrArg₂ List.cons ?_ (congrArg₂ List.cons ?_ (congrArg₂ List.cons ?_ (congrArg₂ List.cons ?_ (congrArg₂ List.cons ?_ (congrArg₂ List.cons ?_ (congrArg₂ List.cons ?_ (congrArg₂ List.cons ?_ (congrArg₂ List.cons ?_ rfl)))))))) <;>
  refine Prod.ext rfl (Prod.ext rfl ?_) <;> simp only [] <;> ring

private theorem row_i2_3 (e : CellSEnv ℝ) : cellS_i2_3 e = (cellSDofs e).map fun b =>
    (e.i2 * 5 + 3, b.1, ∑ p, ∑ q, v2 e.gx_i2_3 e.gy_i2_3 p * (m2 e.E44 e.E45 e.E55 p q / e.Ac) * b.2 q) := by
  simp only [cellS_i2_3, gx_i1_2_def, gy_i1_2_def, gx_i1_3_def, gy_i1_3_def, gx_i1_4_def, gy_i1_4_def, gx_i2_2_def, gy_i2_2_def, gx_i2_3_def, gy_i2_3_def, gx_i2_4_def, gy_i2_4_def, gx_i3_2_def, gy_i3_2_def, gx_i3_3_def, gy_i3_3_def, gx_i3_4_def, gy_i3_4_def, cellSDofs,
    List.map_cons, List.map_nil, Fin.sum_univ_two, v2_0, v2_1, m2_00, m2_01, m2_10, m2_11]
  refine congrArg₂ List.cons ?_ (congrArg₂ List.cons ?_ (congrArg₂ List.cons ?_ (congrArg₂ List.cons ?_ (congrArg₂ List.cons ?_ (congrArg₂ List.cons ?_ (congrArg₂ List.cons ?_ (congrArg₂ List.cons ?_ (congrArg₂ List.cons ?_ rfl)))))))) <;>
  refine Prod.ext rfl (Prod.ext rfl ?_) <;> simp only [] <;> ring

private theorem row_i2_4 (e : CellSEnv ℝ) : cellS_i2_4 e = (cellSDofs e).map fun b =>
    (e.i2 * 5 + 4, b.1, ∑ p, ∑ q, v2 e.gx_i2_4 e.gy_i2_4 p * (m2 e.E44 e.E45 e.E55 p q / e.Ac) * b.2 q) := by
  simp only [cellS_i2_4, gx_i1_2_def, gy_i1_2_def, gx_i1_3_def, gy_i1_3_def, gx_i1_4_def, gy_i1_4_def, gx_i2_2_def, gy_i2_2_def, gx_i2_3_def, gy_i2_3_def, gx_i2_4_def, gy_i2_4_def, gx_i3_2_def, gy_i3_2_def, gx_i3_3_def, gy_i3_3_def, gx_i3_4_def, gy_i3_4_def, cellSDofs,
    List.map_cons, List.map_nil, Fin.sum_univ_two, v2_0, v2_1, m2_00, m2_01, m2_10, m2_11]
  refine congrArg₂ List.cons ?_ (congrArg₂ List.cons ?_ (congrArg₂ List.cons ?_ (congrArg₂ List.cons ?_ (congrArg₂ List.cons ?_ (congrArg₂ List.cons ?_ (congrArg₂ List.cons ?_ (congrArg₂ List.cons ?_ (congrArg₂ List.cons ?_ rfl)))))))) <;>
  refine Prod.ext rfl (Prod.ext rfl ?_) <;> simp only [] <;> ring

private theorem row_i3_2 (e : CellSEnv ℝ) : cellS_i3_2 e = (cellSDofs e).map fun b =>
    (e.i3 * 5 + 2, b.1, ∑ p, ∑ q, v2 e.gx_i3_2 e.gy_i3_2 p * (m2 e.E44 e.E45 e.E55 p q / e.Ac) * b.2 q) := by
  simp only [cellS_i3_2, gx_i1_2_def, gy_i1_2_def, gx_i1_3_def, gy_i1_3_def, gx_i1_4_def, gy_i1_4_def, gx_i2_2_def, gy_i2_2_def, gx_i2_3_def, gy_i2_3_def, gx_i2_4_def, gy_i2_4_def, gx_i3_2_def, gy_i3_2_def, gx_i3_3_def, gy_i3_3_def, gx_i3_4_def, gy_i3_4_def, cellSDofs,
    List.map_cons, List.map_nil, Fin.sum_univ_two, v2_0, v2_1, m2_00, m2_01, m2_10, m2_11]
  refine congrArg₂ List.cons ?_ (congrArg₂ List.cons ?_ (congrArg₂ List.cons ?_ (congrArg₂ List.cons ?_ (congrArg₂ List.cons ?_ (congrArg₂ List.cons ?_ (congrArg₂ List.cons ?_ (congrArg₂ List.cons ?_ (congrArg₂ List.cons ?_ rfl)))))))) <;>
  refine Prod.ext rfl (Prod.ext rfl ?_) <;> simp only [] <;> ring

private theorem row_i3_3 (e : CellSEnv ℝ) : cellS_i3_3 e = (cellSDofs e).map fun b =>
    (e.i3 * 5 + 3, b.1, ∑ p, ∑ q, v2 e.gx_i3_3 e.gy_i3_3 p * (m2 e.E44 e.E45 e.E55 p q / e.Ac) * b.2 q) := by
  simp only [cellS_i3_3, gx_i1_2_def, gy_i1_2_def, gx_i1_3_def, gy_i1_3_def, gx_i1_4_def, gy_i1_4_def, gx_i2_2_def, gy_i2_2_def, gx_i2_3_def, gy_i2_3_def, gx_i2_4_def, gy_i2_4_def, gx_i3_2_def, gy_i3_2_def, gx_i3_3_def, gy_i3_3_def, gx_i3_4_def, gy_i3_4_def, cellSDofs,
    List.map_cons, List.map_nil, Fin.sum_univ_two, v2_0, v2_1, m2_00, m2_01, m2_10, m2_11]
  refine congrArg₂ List.cons ?_ (congrArg₂ List.cons ?_ (congrArg₂ List.cons ?_ (congrArg₂ List.cons ?_ (congrArg₂ List.cons ?_ (congrArg₂ List.cons ?_ (congrArg₂ List.cons ?_ (congrArg₂ List.cons ?_ (congrArg₂ List.cons ?_ rfl)))))))) <;>
  refine Prod.ext rfl (Prod.ext rfl ?_) <;> simp only [] <;> ring

private theorem row_i3_4 (e : CellSEnv ℝ) : cellS_i3_4 e = (cellSDofs e).map fun b =>
    (e.i3 * 5 + 4, b.1, ∑ p, ∑ q, v2 e.gx_i3_4 e.gy_i3_4 p * (m2 e.E44 e.E45 e.E55 p q / e.Ac) * b.2 q) := by
  simp only [cellS_i3_4, gx_i1_2_def, gy_i1_2_def, gx_i1_3_def, gy_i1_3_def, gx_i1_4_def, gy_i1_4_def, gx_i2_2_def, gy_i2_2_def, gx_i2_3_def, gy_i2_3_def, gx_i2_4_def, gy_i2_4_def, gx_i3_2_def, gy_i3_2_def, gx_i3_3_def, gy_i3_3_def, gx_i3_4_def, gy_i3_4_def, cellSDofs,
    List.map_cons, List.map_nil, Fin.sum_univ_two, v2_0, v2_1, m2_00, m2_01, m2_10, m2_11]
  refine congrArg₂ List.cons ?_ (congrArg₂ List.cons ?_ (congrArg₂ List.cons ?_ (congrArg₂ List.cons ?_ (congrArg₂ List.cons ?_ (congrArg₂ List.cons ?_ (congrArg₂ List.cons ?_ (congrArg₂ List.cons ?_ (congrArg₂ List.cons ?_ rfl)))))))) <;>
  refine Prod.ext rfl (Prod.ext rfl ?_) <;> simp only [] <;> ring

/-- The 81 pasted lines are the outer product of the shear columns with `[E44 E45; E45 E55] / Ac`. -/
theorem cellSEntries_eq (e : CellSEnv ℝ) :
    cellSEntries e = outer (fun p q => m2 e.E44 e.E45 e.E55 p q / e.Ac) (cellSDofs e) := by
  have h : ∀ l : List (ℤ × (Fin 2 → ℝ)), l = cellSDofs e → outer (fun p q => m2 e.E44 e.E45 e.E55 p q / e.Ac) l =
      ([(e.i1 * 5 + 2, v2 e.gx_i1_2 e.gy_i1_2), (e.i1 * 5 + 3, v2 e.gx_i1_3 e.gy_i1_3), (e.i1 * 5 + 4, v2 e.gx_i1_4 e.gy_i1_4), (e.i2 * 5 + 2, v2 e.gx_i2_2 e.gy_i2_2), (e.i2 * 5 + 3, v2 e.gx_i2_3 e.gy_i2_3), (e.i2 * 5 + 4, v2 e.gx_i2_4 e.gy_i2_4), (e.i3 * 5 + 2, v2 e.gx_i3_2 e.gy_i3_2), (e.i3 * 5 + 3, v2 e.gx_i3_3 e.gy_i3_3), (e.i3 * 5 + 4, v2 e.gx_i3_4 e.gy_i3_4)] : List (ℤ × (Fin 2 → ℝ))).flatMap
        fun a => l.map fun b => (a.1, b.1, ∑ p, ∑ q, a.2 p * (m2 e.E44 e.E45 e.E55 p q / e.Ac) * b.2 q) := by
    rintro _ rfl; rfl
  rw [h _ rfl]
  simp only [cellSEntries, row_i1_2, row_i1_3, row_i1_4, row_i2_2, row_i2_3, row_i2_4, row_i3_2, row_i3_3, row_i3_4]
  generalize cellSDofs e = l
  simp only [List.flatMap_cons, List.flatMap_nil, List.append_nil, List.append_assoc]

end Meshless
