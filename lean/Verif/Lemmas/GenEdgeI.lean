import Verif.Lemmas.GenEdgeB
import Verif.Model.Gen.EdgeI
import Mathlib.Tactic.FieldSimp

/-! Written by /verif/tools/genlem.py. -/

set_option autoImplicit false

namespace Meshless

noncomputable def EdgeIEnv.gx_i1_2 (e : EdgeIEnv ℝ) : ℝ := e.Ac1 * (e.d1 / (2 * e.Ac1) + 0.166666666666667 * (e.b1 - e.d1) / e.Ac1) + e.Ac2 * (0.166666666666667 * e.d2 / e.Ac2 + (e.b2 - e.d2) / (2 * e.Ac2))
noncomputable def EdgeIEnv.gy_i1_2 (e : EdgeIEnv ℝ) : ℝ := e.Ac1 * (-e.c1 / (2 * e.Ac1) + 0.166666666666667 * (-e.a1 + e.c1) / e.Ac1) + e.Ac2 * (-0.166666666666667 * e.c2 / e.Ac2 + (-e.a2 + e.c2) / (2 * e.Ac2))
private theorem gx_i1_2_def (e : EdgeIEnv ℝ) : e.Ac1 * (e.d1 / (2 * e.Ac1) + 0.166666666666667 * (e.b1 - e.d1) / e.Ac1) + e.Ac2 * (0.166666666666667 * e.d2 / e.Ac2 + (e.b2 - e.d2) / (2 * e.Ac2)) = e.gx_i1_2 := rfl
private theorem gy_i1_2_def (e : EdgeIEnv ℝ) : e.Ac1 * (-e.c1 / (2 * e.Ac1) + 0.166666666666667 * (-e.a1 + e.c1) / e.Ac1) + e.Ac2 * (-0.166666666666667 * e.c2 / e.Ac2 + (-e.a2 + e.c2) / (2 * e.Ac2)) = e.gy_i1_2 := rfl
noncomputable def EdgeIEnv.gx_i1_3 (e : EdgeIEnv ℝ) : ℝ := e.Ac1 * (0.166666666666667 + e.a1 * e.d1 / (4 * e.Ac1)) + e.Ac2 * (1 / 2 + 0.0833333333333333 * e.a2 * e.d2 / e.Ac2)
noncomputable def EdgeIEnv.gy_i1_3 (e : EdgeIEnv ℝ) : ℝ := -e.a1 * e.c1 / 4 - 0.0833333333333333 * e.a2 * e.c2
private theorem gx_i1_3_def (e : EdgeIEnv ℝ) : e.Ac1 * (0.166666666666667 + e.a1 * e.d1 / (4 * e.Ac1)) + e.Ac2 * (1 / 2 + 0.0833333333333333 * e.a2 * e.d2 / e.Ac2) = e.gx_i1_3 := rfl
private theorem gy_i1_3_def (e : EdgeIEnv ℝ) : -e.a1 * e.c1 / 4 - 0.0833333333333333 * e.a2 * e.c2 = e.gy_i1_3 := rfl
noncomputable def EdgeIEnv.gx_i1_4 (e : EdgeIEnv ℝ) : ℝ := e.b1 * e.d1 / 4 + 0.0833333333333333 * e.b2 * e.d2
noncomputable def EdgeIEnv.gy_i1_4 (e : EdgeIEnv ℝ) : ℝ := e.Ac1 * (0.166666666666667 - e.b1 * e.c1 / (4 * e.Ac1)) + e.Ac2 * (1 / 2 - 0.0833333333333333 * e.b2 * e.c2 / e.Ac2)
private theorem gx_i1_4_def (e : EdgeIEnv ℝ) : e.b1 * e.d1 / 4 + 0.0833333333333333 * e.b2 * e.d2 = e.gx_i1_4 := rfl
private theorem gy_i1_4_def (e : EdgeIEnv ℝ) : e.Ac1 * (0.166666666666667 - e.b1 * e.c1 / (4 * e.Ac1)) + e.Ac2 * (1 / 2 - 0.0833333333333333 * e.b2 * e.c2 / e.Ac2) = e.gy_i1_4 := rfl
noncomputable def EdgeIEnv.gx_i2_2 (e : EdgeIEnv ℝ) : ℝ := e.Ac1 * (-e.b1 / (2 * e.Ac1) + 0.166666666666667 * (e.b1 - e.d1) / e.Ac1) + e.Ac2 * (-e.b2 / (2 * e.Ac2) + 0.166666666666667 * e.d2 / e.Ac2)
noncomputable def EdgeIEnv.gy_i2_2 (e : EdgeIEnv ℝ) : ℝ := e.Ac1 * (e.a1 / (2 * e.Ac1) + 0.166666666666667 * (-e.a1 + e.c1) / e.Ac1) + e.Ac2 * (e.a2 / (2 * e.Ac2) - 0.166666666666667 * e.c2 / e.Ac2)
private theorem gx_i2_2_def (e : EdgeIEnv ℝ) : e.Ac1 * (-e.b1 / (2 * e.Ac1) + 0.166666666666667 * (e.b1 - e.d1) / e.Ac1) + e.Ac2 * (-e.b2 / (2 * e.Ac2) + 0.166666666666667 * e.d2 / e.Ac2) = e.gx_i2_2 := rfl
private theorem gy_i2_2_def (e : EdgeIEnv ℝ) : e.Ac1 * (e.a1 / (2 * e.Ac1) + 0.166666666666667 * (-e.a1 + e.c1) / e.Ac1) + e.Ac2 * (e.a2 / (2 * e.Ac2) - 0.166666666666667 * e.c2 / e.Ac2) = e.gy_i2_2 := rfl
noncomputable def EdgeIEnv.gx_i2_3 (e : EdgeIEnv ℝ) : ℝ := e.Ac1 * (0.166666666666667 - e.b1 * e.c1 / (4 * e.Ac1)) + e.Ac2 * (0.0833333333333333 * e.a2 * e.d2 / e.Ac2 - e.b2 * e.c2 / (4 * e.Ac2))
noncomputable def EdgeIEnv.gy_i2_3 (e : EdgeIEnv ℝ) : ℝ := e.a1 * e.c1 / 4 + 0.166666666666667 * e.a2 * e.c2
private theorem gx_i2_3_def (e : EdgeIEnv ℝ) : e.Ac1 * (0.166666666666667 - e.b1 * e.c1 / (4 * e.Ac1)) + e.Ac2 * (0.0833333333333333 * e.a2 * e.d2 / e.Ac2 - e.b2 * e.c2 / (4 * e.Ac2)) = e.gx_i2_3 := rfl
private theorem gy_i2_3_def (e : EdgeIEnv ℝ) : e.a1 * e.c1 / 4 + 0.166666666666667 * e.a2 * e.c2 = e.gy_i2_3 := rfl
noncomputable def EdgeIEnv.gx_i2_4 (e : EdgeIEnv ℝ) : ℝ := -e.b1 * e.d1 / 4 - 0.166666666666667 * e.b2 * e.d2
noncomputable def EdgeIEnv.gy_i2_4 (e : EdgeIEnv ℝ) : ℝ := e.Ac1 * (0.166666666666667 + e.a1 * e.d1 / (4 * e.Ac1)) + e.Ac2 * (e.a2 * e.d2 / (4 * e.Ac2) - 0.0833333333333333 * e.b2 * e.c2 / e.Ac2)
private theorem gx_i2_4_def (e : EdgeIEnv ℝ) : -e.b1 * e.d1 / 4 - 0.166666666666667 * e.b2 * e.d2 = e.gx_i2_4 := rfl
private theorem gy_i2_4_def (e : EdgeIEnv ℝ) : e.Ac1 * (0.166666666666667 + e.a1 * e.d1 / (4 * e.Ac1)) + e.Ac2 * (e.a2 * e.d2 / (4 * e.Ac2) - 0.0833333333333333 * e.b2 * e.c2 / e.Ac2) = e.gy_i2_4 := rfl
/-- shear columns of the dofs, and the columns of the rounding residue -/
noncomputable def edgeIDofs (e : EdgeIEnv ℝ) : List (ℤ × (Fin 8 → ℝ)) := [
  (e.i1 * 5 + 2, v8 (e.gx_i1_2) (e.gy_i1_2) (0) (0) (0) (0) (0) (0)),
  (e.i1 * 5 + 3, v8 (e.gx_i1_3) (e.gy_i1_3) (0) (0) (0) (0) (0) (0)),
  (e.i1 * 5 + 4, v8 (e.gx_i1_4) (e.gy_i1_4) (0) (0) (0) (0) (0) (0)),
  (e.i2 * 5 + 2, v8 (e.gx_i2_2) (e.gy_i2_2) (0) (0) (0) (0) (0) (0)),
  (e.i2 * 5 + 3, v8 (e.gx_i2_3) (e.gy_i2_3) (0) (0) (0) (0) (0) (0)),
  (e.i2 * 5 + 4, v8 (e.gx_i2_4) (e.gy_i2_4) (0) (0) (0) (0) (0) (0)),
  (e.i3 * 5 + 2, v8 (0.166666666666667 * (e.b1 - e.d1)) (0.166666666666667 * (-e.a1 + e.c1)) (0) (0) (0) (0) (0) (0)),
  (e.i3 * 5 + 3, v8 (0.166666666666667 * e.Ac1) (0) (e.Ac1 / e.Ac) (0) (eps1 * e.Ac1) (0) (0) (0)),
  (e.i3 * 5 + 4, v8 (0) (0.166666666666667 * e.Ac1) (0) (e.Ac1 / e.Ac) (0) (eps1 * e.Ac1) (0) (0)),
  (e.i4 * 5 + 2, v8 (0.166666666666667 * e.d2) (-0.166666666666667 * e.c2) (0) (0) (eps1 * e.d2) (-eps1 * e.c2) (0) (0)),
  (e.i4 * 5 + 3, v8 (0.0833333333333333 * e.a2 * e.d2) (-0.0833333333333333 * e.a2 * e.c2) (0) (0) (eps2 * e.a2 * e.d2) (-eps2 * e.a2 * e.c2) (0) (0)),
  (e.i4 * 5 + 4, v8 (0.0833333333333333 * e.b2 * e.d2) (-0.0833333333333333 * e.b2 * e.c2) (0) (0) (eps2 * e.b2 * e.d2) (-eps2 * e.b2 * e.c2) (0) (0))]

private theorem row_i1_2 (e : EdgeIEnv ℝ) : edgeI_i1_2 e = (edgeIDofs e).map fun b =>
    (e.i1 * 5 + 2, b.1, ∑ p, ∑ q, v8 (e.gx_i1_2) (e.gy_i1_2) (0) (0) (0) (0) (0) (0) p * cE (1 / e.Ac) e.E44 e.E45 e.E55 p q * b.2 q) := by
  simp only [edgeI_i1_2, gx_i1_2_def, gy_i1_2_def, gx_i1_3_def, gy_i1_3_def, gx_i1_4_def, gy_i1_4_def, gx_i2_2_def, gy_i2_2_def, gx_i2_3_def, gy_i2_3_def, gx_i2_4_def, gy_i2_4_def, edgeIDofs, List.map_cons, List.map_nil, sumE, eps1, eps2, eps3]
  refine congrArg₂ List.cons ?_ (congrArg₂ List.cons ?_ (congrArg₂ List.cons ?_ (congrArg₂ List.cons ?_ (congrArg₂ List.cons ?_ (congrArg₂ List.cons ?_ (congrArg₂ List.cons ?_ (congrArg₂ List.cons ?_ (congrArg₂ List.cons ?_ (congrArg₂ List.cons ?_ (congrArg₂ List.cons ?_ (congrArg₂ List.cons ?_ rfl))))))))))) <;>
  refine Prod.ext rfl (Prod.ext rfl ?_) <;> simp only [] <;> ring

private theorem row_i1_3 (e : EdgeIEnv ℝ) : edgeI_i1_3 e = (edgeIDofs e).map fun b =>
    (e.i1 * 5 + 3, b.1, ∑ p, ∑ q, v8 (e.gx_i1_3) (e.gy_i1_3) (0) (0) (0) (0) (0) (0) p * cE (1 / e.Ac) e.E44 e.E45 e.E55 p q * b.2 q) := by
  simp only [edgeI_i1_3, gx_i1_2_def, gy_i1_2_def, gx_i1_3_def, gy_i1_3_def, gx_i1_4_def, gy_i1_4_def, gx_i2_2_def, gy_i2_2_def, gx_i2_3_def, gy_i2_3_def, gx_i2_4_def, gy_i2_4_def, edgeIDofs, List.map_cons, List.map_nil, sumE, eps1, eps2, eps3]
  refine congrArg₂ List.cons ?_ (congrArg₂ List.cons ?_ (congrArg₂ List.cons ?_ (congrArg₂ List.cons ?_ (congrArg₂ List.cons ?_ (congrArg₂ List.cons ?_ (congrArg₂ List.cons ?_ (congrArg₂ List.cons ?_ (congrArg₂ List.cons ?_ (congrArg₂ List.cons ?_ (congrArg₂ List.cons ?_ (congrArg₂ List.cons ?_ rfl))))))))))) <;>
  refine Prod.ext rfl (Prod.ext rfl ?_) <;> simp only [] <;> ring

private theorem row_i1_4 (e : EdgeIEnv ℝ) : edgeI_i1_4 e = (edgeIDofs e).map fun b =>
    (e.i1 * 5 + 4, b.1, ∑ p, ∑ q, v8 (e.gx_i1_4) (e.gy_i1_4) (0) (0) (0) (0) (0) (0) p * cE (1 / e.Ac) e.E44 e.E45 e.E55 p q * b.2 q) := by
  simp only [edgeI_i1_4, gx_i1_2_def, gy_i1_2_def, gx_i1_3_def, gy_i1_3_def, gx_i1_4_def, gy_i1_4_def, gx_i2_2_def, gy_i2_2_def, gx_i2_3_def, gy_i2_3_def, gx_i2_4_def, gy_i2_4_def, edgeIDofs, List.map_cons, List.map_nil, sumE, eps1, eps2, eps3]
  refine congrArg₂ List.cons ?_ (congrArg₂ List.cons ?_ (congrArg₂ List.cons ?_ (congrArg₂ List.cons ?_ (congrArg₂ List.cons ?_ (congrArg₂ List.cons ?_ (congrArg₂ List.cons ?_ (congrArg₂ List.cons ?_ (congrArg₂ List.cons ?_ (congrArg₂ List.cons ?_ (congrArg₂ List.cons ?_ (congrArg₂ List.cons ?_ rfl))))))))))) <;>
  refine Prod.ext rfl (Prod.ext rfl ?_) <;> simp only [] <;> ring

private theorem row_i2_2 (e : EdgeIEnv ℝ) : edgeI_i2_2 e = (edgeIDofs e).map fun b =>
    (e.i2 * 5 + 2, b.1, ∑ p, ∑ q, v8 (e.gx_i2_2) (e.gy_i2_2) (0) (0) (0) (0) (0) (0) p * cE (1 / e.Ac) e.E44 e.E45 e.E55 p q * b.2 q) := by
  simp only [edgeI_i2_2, gx_i1_2_def, gy_i1_2_def, gx_i1_3_def, gy_i1_3_def, gx_i1_4_def, gy_i1_4_def, gx_i2_2_def, gy_i2_2_def, gx_i2_3_def, gy_i2_3_def, gx_i2_4_def, gy_i2_4_def, edgeIDofs, List.map_cons, List.map_nil, sumE, eps1, eps2, eps3]
  refine congrArg₂ List.cons ?_ (congrArg₂ List.cons ?_ (congrArg₂ List.cons ?_ (congrArg₂ List.cons ?_ (congrArg₂ List.cons ?_ (congrArg₂ List.cons ?_ (congrArg₂ List.cons ?_ (congrArg₂ List.cons ?_ (congrArg₂ List.cons ?_ (congrArg₂ List.cons ?_ (congrArg₂ List.cons ?_ (congrArg₂ List.cons ?_ rfl))))))))))) <;>
  refine Prod.ext rfl (Prod.ext rfl ?_) <;> simp only [] <;> ring

private theorem row_i2_3 (e : EdgeIEnv ℝ) : edgeI_i2_3 e = (edgeIDofs e).map fun b =>
    (e.i2 * 5 + 3, b.1, ∑ p, ∑ q, v8 (e.gx_i2_3) (e.gy_i2_3) (0) (0) (0) (0) (0) (0) p * cE (1 / e.Ac) e.E44 e.E45 e.E55 p q * b.2 q) := by
  simp only [edgeI_i2_3, gx_i1_2_def, gy_i1_2_def, gx_i1_3_def, gy_i1_3_def, gx_i1_4_def, gy_i1_4_def, gx_i2_2_def, gy_i2_2_def, gx_i2_3_def, gy_i2_3_def, gx_i2_4_def, gy_i2_4_def, edgeIDofs, List.map_cons, List.map_nil, sumE, eps1, eps2, eps3]
  refine congrArg₂ List.cons ?_ (congrArg₂ List.cons ?_ (congrArg₂ List.cons ?_ (congrArg₂ List.cons ?_ (congrArg₂ List.cons ?_ (congrArg₂ List.cons ?_ (congrArg₂ List.cons ?_ (congrArg₂ List.cons ?_ (congrArg₂ List.cons ?_ (congrArg₂ List.cons ?_ (congrArg₂ List.cons ?_ (congrArg₂ List.cons ?_ rfl))))))))))) <;>
  refine Prod.ext rfl (Prod.ext rfl ?_) <;> simp only [] <;> ring

private theorem row_i2_4 (e : EdgeIEnv ℝ) : edgeI_i2_4 e = (edgeIDofs e).map fun b =>
    (e.i2 * 5 + 4, b.1, ∑ p, ∑ q, v8 (e.gx_i2_4) (e.gy_i2_4) (0) (0) (0) (0) (0) (0) p * cE (1 / e.Ac) e.E44 e.E45 e.E55 p q * b.2 q) := by
  simp only [edgeI_i2_4, gx_i1_2_def, gy_i1_2_def, gx_i1_3_def, gy_i1_3_def, gx_i1_4_def, gy_i1_4_def, gx_i2_2_def, gy_i2_2_def, gx_i2_3_def, gy_i2_3_def, gx_i2_4_def, gy_i2_4_def, edgeIDofs, List.map_cons, List.map_nil, sumE, eps1, eps2, eps3]
  refine congrArg₂ List.cons ?_ (congrArg₂ List.cons ?_ (congrArg₂ List.cons ?_ (congrArg₂ List.cons ?_ (congrArg₂ List.cons ?_ (congrArg₂ List.cons ?_ (congrArg₂ List.cons ?_ (congrArg₂ List.cons ?_ (congrArg₂ List.cons ?_ (congrArg₂ List.cons ?_ (congrArg₂ List.cons ?_ (congrArg₂ List.cons ?_ rfl))))))))))) <;>
  refine Prod.ext rfl (Prod.ext rfl ?_) <;> simp only [] <;> ring

private theorem row_i3_2 (e : EdgeIEnv ℝ) : edgeI_i3_2 e = (edgeIDofs e).map fun b =>
    (e.i3 * 5 + 2, b.1, ∑ p, ∑ q, v8 (0.166666666666667 * (e.b1 - e.d1)) (0.166666666666667 * (-e.a1 + e.c1)) (0) (0) (0) (0) (0) (0) p * cE (1 / e.Ac) e.E44 e.E45 e.E55 p q * b.2 q) := by
  simp only [edgeI_i3_2, gx_i1_2_def, gy_i1_2_def, gx_i1_3_def, gy_i1_3_def, gx_i1_4_def, gy_i1_4_def, gx_i2_2_def, gy_i2_2_def, gx_i2_3_def, gy_i2_3_def, gx_i2_4_def, gy_i2_4_def, edgeIDofs, List.map_cons, List.map_nil, sumE, eps1, eps2, eps3]
  refine congrArg₂ List.cons ?_ (congrArg₂ List.cons ?_ (congrArg₂ List.cons ?_ (congrArg₂ List.cons ?_ (congrArg₂ List.cons ?_ (congrArg₂ List.cons ?_ (congrArg₂ List.cons ?_ (congrArg₂ List.cons ?_ (congrArg₂ List.cons ?_ (congrArg₂ List.cons ?_ (congrArg₂ List.cons ?_ (congrArg₂ List.cons ?_ rfl))))))))))) <;>
  refine Prod.ext rfl (Prod.ext rfl ?_) <;> simp only [] <;> ring

private theorem row_i3_3 (e : EdgeIEnv ℝ) : edgeI_i3_3 e = (edgeIDofs e).map fun b =>
    (e.i3 * 5 + 3, b.1, ∑ p, ∑ q, v8 (0.166666666666667 * e.Ac1) (0) (e.Ac1 / e.Ac) (0) (eps1 * e.Ac1) (0) (0) (0) p * cE (1 / e.Ac) e.E44 e.E45 e.E55 p q * b.2 q) := by
  simp only [edgeI_i3_3, gx_i1_2_def, gy_i1_2_def, gx_i1_3_def, gy_i1_3_def, gx_i1_4_def, gy_i1_4_def, gx_i2_2_def, gy_i2_2_def, gx_i2_3_def, gy_i2_3_def, gx_i2_4_def, gy_i2_4_def, edgeIDofs, List.map_cons, List.map_nil, sumE, eps1, eps2, eps3]
  refine congrArg₂ List.cons ?_ (congrArg₂ List.cons ?_ (congrArg₂ List.cons ?_ (congrArg₂ List.cons ?_ (congrArg₂ List.cons ?_ (congrArg₂ List.cons ?_ (congrArg₂ List.cons ?_ (congrArg₂ List.cons ?_ (congrArg₂ List.cons ?_ (congrArg₂ List.cons ?_ (congrArg₂ List.cons ?_ (congrArg₂ List.cons ?_ rfl))))))))))) <;>
  refine Prod.ext rfl (Prod.ext rfl ?_) <;> simp only [] <;> ring

private theorem row_i3_4 (e : EdgeIEnv ℝ) : edgeI_i3_4 e = (edgeIDofs e).map fun b =>
    (e.i3 * 5 + 4, b.1, ∑ p, ∑ q, v8 (0) (0.166666666666667 * e.Ac1) (0) (e.Ac1 / e.Ac) (0) (eps1 * e.Ac1) (0) (0) p * cE (1 / e.Ac) e.E44 e.E45 e.E55 p q * b.2 q) := by
  simp only [edgeI_i3_4, gx_i1_2_def, gy_i1_2_def, gx_i1_3_def, gy_i1_3_def, gx_i1_4_def, gy_i1_4_def, gx_i2_2_def, gy_i2_2_def, gx_i2_3_def, gy_i2_3_def, gx_i2_4_def, gy_i2_4_def, edgeIDofs, List.map_cons, List.map_nil, sumE, eps1, eps2, eps3]
  refine congrArg₂ List.cons ?_ (congrArg₂ List.cons ?_ (congrArg₂ List.cons ?_ (congrArg₂ List.cons ?_ (congrArg₂ List.cons ?_ (congrArg₂ List.cons ?_ (congrArg₂ List.cons ?_ (congrArg₂ List.cons ?_ (congrArg₂ List.cons ?_ (congrArg₂ List.cons ?_ (congrArg₂ List.cons ?_ (congrArg₂ List.cons ?_ rfl))))))))))) <;>
  refine Prod.ext rfl (Prod.ext rfl ?_) <;> simp only [] <;> ring

private theorem row_i4_2 (e : EdgeIEnv ℝ) : edgeI_i4_2 e = (edgeIDofs e).map fun b =>
    (e.i4 * 5 + 2, b.1, ∑ p, ∑ q, v8 (0.166666666666667 * e.d2) (-0.166666666666667 * e.c2) (0) (0) (eps1 * e.d2) (-eps1 * e.c2) (0) (0) p * cE (1 / e.Ac) e.E44 e.E45 e.E55 p q * b.2 q) := by
  simp only [edgeI_i4_2, gx_i1_2_def, gy_i1_2_def, gx_i1_3_def, gy_i1_3_def, gx_i1_4_def, gy_i1_4_def, gx_i2_2_def, gy_i2_2_def, gx_i2_3_def, gy_i2_3_def, gx_i2_4_def, gy_i2_4_def, edgeIDofs, List.map_cons, List.map_nil, sumE, eps1, eps2, eps3]
  refine congrArg₂ List.cons ?_ (congrArg₂ List.cons ?_ (congrArg₂ List.cons ?_ (congrArg₂ List.cons ?_ (congrArg₂ List.cons ?_ (congrArg₂ List.cons ?_ (congrArg₂ List.cons ?_ (congrArg₂ List.cons ?_ (congrArg₂ List.cons ?_ (congrArg₂ List.cons ?_ (congrArg₂ List.cons ?_ (congrArg₂ List.cons ?_ rfl))))))))))) <;>
  refine Prod.ext rfl (Prod.ext rfl ?_) <;> simp only [] <;> ring

private theorem row_i4_3 (e : EdgeIEnv ℝ) : edgeI_i4_3 e = (edgeIDofs e).map fun b =>
    (e.i4 * 5 + 3, b.1, ∑ p, ∑ q, v8 (0.0833333333333333 * e.a2 * e.d2) (-0.0833333333333333 * e.a2 * e.c2) (0) (0) (eps2 * e.a2 * e.d2) (-eps2 * e.a2 * e.c2) (0) (0) p * cE (1 / e.Ac) e.E44 e.E45 e.E55 p q * b.2 q) := by
  simp only [edgeI_i4_3, gx_i1_2_def, gy_i1_2_def, gx_i1_3_def, gy_i1_3_def, gx_i1_4_def, gy_i1_4_def, gx_i2_2_def, gy_i2_2_def, gx_i2_3_def, gy_i2_3_def, gx_i2_4_def, gy_i2_4_def, edgeIDofs, List.map_cons, List.map_nil, sumE, eps1, eps2, eps3]
  refine congrArg₂ List.cons ?_ (congrArg₂ List.cons ?_ (congrArg₂ List.cons ?_ (congrArg₂ List.cons ?_ (congrArg₂ List.cons ?_ (congrArg₂ List.cons ?_ (congrArg₂ List.cons ?_ (congrArg₂ List.cons ?_ (congrArg₂ List.cons ?_ (congrArg₂ List.cons ?_ (congrArg₂ List.cons ?_ (congrArg₂ List.cons ?_ rfl))))))))))) <;>
  refine Prod.ext rfl (Prod.ext rfl ?_) <;> simp only [] <;> ring

private theorem row_i4_4 (e : EdgeIEnv ℝ) : edgeI_i4_4 e = (edgeIDofs e).map fun b =>
    (e.i4 * 5 + 4, b.1, ∑ p, ∑ q, v8 (0.0833333333333333 * e.b2 * e.d2) (-0.0833333333333333 * e.b2 * e.c2) (0) (0) (eps2 * e.b2 * e.d2) (-eps2 * e.b2 * e.c2) (0) (0) p * cE (1 / e.Ac) e.E44 e.E45 e.E55 p q * b.2 q) := by
  simp only [edgeI_i4_4, gx_i1_2_def, gy_i1_2_def, gx_i1_3_def, gy_i1_3_def, gx_i1_4_def, gy_i1_4_def, gx_i2_2_def, gy_i2_2_def, gx_i2_3_def, gy_i2_3_def, gx_i2_4_def, gy_i2_4_def, edgeIDofs, List.map_cons, List.map_nil, sumE, eps1, eps2, eps3]
  refine congrArg₂ List.cons ?_ (congrArg₂ List.cons ?_ (congrArg₂ List.cons ?_ (congrArg₂ List.cons ?_ (congrArg₂ List.cons ?_ (congrArg₂ List.cons ?_ (congrArg₂ List.cons ?_ (congrArg₂ List.cons ?_ (congrArg₂ List.cons ?_ (congrArg₂ List.cons ?_ (congrArg₂ List.cons ?_ (congrArg₂ List.cons ?_ rfl))))))))))) <;>
  refine Prod.ext rfl (Prod.ext rfl ?_) <;> simp only [] <;> ring

/-- The 144 pasted lines, up to the two rounded coefficients, are the outer product of the shear columns. -/
theorem edgeIEntries_eq (e : EdgeIEnv ℝ) : edgeIEntries e = outer (cE (1 / e.Ac) e.E44 e.E45 e.E55) (edgeIDofs e) := by
  have h : ∀ l : List (ℤ × (Fin 8 → ℝ)), l = edgeIDofs e → outer (cE (1 / e.Ac) e.E44 e.E45 e.E55) l =
      ([(e.i1 * 5 + 2, v8 (e.gx_i1_2) (e.gy_i1_2) (0) (0) (0) (0) (0) (0)), (e.i1 * 5 + 3, v8 (e.gx_i1_3) (e.gy_i1_3) (0) (0) (0) (0) (0) (0)), (e.i1 * 5 + 4, v8 (e.gx_i1_4) (e.gy_i1_4) (0) (0) (0) (0) (0) (0)), (e.i2 * 5 + 2, v8 (e.gx_i2_2) (e.gy_i2_2) (0) (0) (0) (0) (0) (0)), (e.i2 * 5 + 3, v8 (e.gx_i2_3) (e.gy_i2_3) (0) (0) (0) (0) (0) (0)), (e.i2 * 5 + 4, v8 (e.gx_i2_4) (e.gy_i2_4) (0) (0) (0) (0) (0) (0)), (e.i3 * 5 + 2, v8 (0.166666666666667 * (e.b1 - e.d1)) (0.166666666666667 * (-e.a1 + e.c1)) (0) (0) (0) (0) (0) (0)), (e.i3 * 5 + 3, v8 (0.166666666666667 * e.Ac1) (0) (e.Ac1 / e.Ac) (0) (eps1 * e.Ac1) (0) (0) (0)), (e.i3 * 5 + 4, v8 (0) (0.166666666666667 * e.Ac1) (0) (e.Ac1 / e.Ac) (0) (eps1 * e.Ac1) (0) (0)), (e.i4 * 5 + 2, v8 (0.166666666666667 * e.d2) (-0.166666666666667 * e.c2) (0) (0) (eps1 * e.d2) (-eps1 * e.c2) (0) (0)), (e.i4 * 5 + 3, v8 (0.0833333333333333 * e.a2 * e.d2) (-0.0833333333333333 * e.a2 * e.c2) (0) (0) (eps2 * e.a2 * e.d2) (-eps2 * e.a2 * e.c2) (0) (0)), (e.i4 * 5 + 4, v8 (0.0833333333333333 * e.b2 * e.d2) (-0.0833333333333333 * e.b2 * e.c2) (0) (0) (eps2 * e.b2 * e.d2) (-eps2 * e.b2 * e.c2) (0) (0))] : List (ℤ × (Fin 8 → ℝ))).flatMap
        fun a => l.map fun b => (a.1, b.1, ∑ p, ∑ q, a.2 p * cE (1 / e.Ac) e.E44 e.E45 e.E55 p q * b.2 q) := by
    rintro _ rfl; rfl
  rw [h _ rfl]
  simp only [edgeIEntries, row_i1_2 e, row_i1_3 e, row_i1_4 e, row_i2_2 e, row_i2_3 e, row_i2_4 e, row_i3_2 e, row_i3_3 e, row_i3_4 e, row_i4_2 e, row_i4_3 e, row_i4_4 e]
  generalize edgeIDofs e = l
  simp only [List.flatMap_cons, List.flatMap_nil, List.append_nil, List.append_assoc]

end Meshless
