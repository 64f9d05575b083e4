import Verif.Lemmas.GenKG
import Verif.Model.Gen.CellNS
import Mathlib.Tactic.FieldSimp

/-! Written by /verif/tools/genlem.py. -/

set_option autoImplicit false

namespace Meshless

/-- discrete-shear-gap columns of the nine dofs of a triangle -/
noncomputable def cellNSDofs (e : CellNSEnv ℝ) : List (ℤ × (Fin 2 → ℝ)) := [
  (e.i1 * 5 + 2, v2 ((e.b1 - e.d1) / (2 * e.Ac)) ((e.c1 - e.a1) / (2 * e.Ac))),
  (e.i1 * 5 + 3, v2 (1 / 2) (0)),
  (e.i1 * 5 + 4, v2 (0) (1 / 2)),
  (e.i2 * 5 + 2, v2 (e.d1 / (2 * e.Ac)) (-e.c1 / (2 * e.Ac))),
  (e.i2 * 5 + 3, v2 (e.a1 * e.d1 / (4 * e.Ac)) (-(e.a1 * e.c1) / (4 * e.Ac))),
  (e.i2 * 5 + 4, v2 (e.b1 * e.d1 / (4 * e.Ac)) (-(e.b1 * e.c1) / (4 * e.Ac))),
  (e.i3 * 5 + 2, v2 (-e.b1 / (2 * e.Ac)) (e.a1 / (2 * e.Ac))),
  (e.i3 * 5 + 3, v2 (-(e.b1 * e.c1) / (4 * e.Ac)) (e.a1 * e.c1 / (4 * e.Ac))),
  (e.i3 * 5 + 4, v2 (-(e.b1 * e.d1) / (4 * e.Ac)) (e.a1 * e.d1 / (4 * e.Ac)))]

private theorem row_i1_2 (e : CellNSEnv ℝ) (hA : e.Ac ≠ 0) : cellNS_i1_2 e = (cellNSDofs e).map fun b =>
    (e.i1 * 5 + 2, b.1, ∑ p, ∑ q, v2 ((e.b1 - e.d1) / (2 * e.Ac)) ((e.c1 - e.a1) / (2 * e.Ac)) p * (e.Ac * m2 e.E44 e.E45 e.E55 p q) * b.2 q) := by
  simp only [cellNS_i1_2, cellNSDofs,
    List.map_cons, List.map_nil, Fin.sum_univ_two, v2_0, v2_1, m2_00, m2_01, m2_10, m2_11]
  refine congrArg₂ List.cons ?_ (congrArg₂ List.cons ?_ (congrArg₂ List.cons ?_ (congrArg₂ List.cons ?_ (congrArg₂ List.cons ?_ (congrArg₂ List.cons ?_ (congrArg₂ List.cons ?_ (congrArg₂ List.cons ?_ (congrArg₂ List.cons ?_ rfl)))))))) <;>
  refine Prod.ext rfl (Prod.ext rfl ?_) <;> simp only [] <;> field_simp <;> ring

private theorem row_i1_3 (e : CellNSEnv ℝ) (hA : e.Ac ≠ 0) : cellNS_i1_3 e = (cellNSDofs e).map fun b =>
    (e.i1 * 5 + 3, b.1, ∑ p, ∑ q, v2 (1 / 2) (0) p * (e.Ac * m2 e.E44 e.E45 e.E55 p q) * b.2 q) := by
  simp only [cellNS_i1_3, cellNSDofs,
    List.map_cons, List.map_nil, Fin.sum_univ_two, v2_0, v2_1, m2_00, m2_01, m2_10, m2_11]
  refine congrArg₂ List.cons ?_ (congrArg₂ List.cons ?_ (congrArg₂ List.cons ?_ (congrArg₂ List.cons ?_ (congrArg₂ List.cons ?_ (congrArg₂ List.cons ?_ (congrArg₂ List.cons ?_ (congrArg₂ List.cons ?_ (congrArg₂ List.cons ?_ rfl)))))))) <;>
  refine Prod.ext rfl (Prod.ext rfl ?_) <;> simp only [] <;> field_simp <;> ring

private theorem row_i1_4 (e : CellNSEnv ℝ) (hA : e.Ac ≠ 0) : cellNS_i1_4 e = (cellNSDofs e).map fun b =>
    (e.i1 * 5 + 4, b.1, ∑ p, ∑ q, v2 (0) (1 / 2) p * (e.Ac * m2 e.E44 e.E45 e.E55 p q) * b.2 q) := by
  simp only [cellNS_i1_4, cellNSDofs,
    List.map_cons, List.map_nil, Fin.sum_univ_two, v2_0, v2_1, m2_00, m2_01, m2_10, m2_11]
  refine congrArg₂ List.cons ?_ (congrArg₂ List.cons ?_ (congrArg₂ List.cons ?_ (congrArg₂ List.cons ?_ (congrArg₂ List.cons ?_ (congrArg₂ List.cons ?_ (congrArg₂ List.cons ?_ (congrArg₂ List.cons ?_ (congrArg₂ List.cons ?_ rfl)))))))) <;>
  refine Prod.ext rfl (Prod.ext rfl ?_) <;> simp only [] <;> field_simp <;> ring

private theorem row_i2_2 (e : CellNSEnv ℝ) (hA : e.Ac ≠ 0) : cellNS_i2_2 e = (cellNSDofs e).map fun b =>
    (e.i2 * 5 + 2, b.1, ∑ p, ∑ q, v2 (e.d1 / (2 * e.Ac)) (-e.c1 / (2 * e.Ac)) p * (e.Ac * m2 e.E44 e.E45 e.E55 p q) * b.2 q) := by
  simp only [cellNS_i2_2, cellNSDofs,
    List.map_cons, List.map_nil, Fin.sum_univ_two, v2_0, v2_1, m2_00, m2_01, m2_10, m2_11]
  refine congrArg₂ List.cons ?_ (congrArg₂ List.cons ?_ (congrArg₂ List.cons ?_ (congrArg₂ List.cons ?_ (congrArg₂ List.cons ?_ (congrArg₂ List.cons ?_ (congrArg₂ List.cons ?_ (congrArg₂ List.cons ?_ (congrArg₂ List.cons ?_ rfl)))))))) <;>
  refine Prod.ext rfl (Prod.ext rfl ?_) <;> simp only [] <;> field_simp <;> ring

private theorem row_i2_3 (e : CellNSEnv ℝ) (hA : e.Ac ≠ 0) : cellNS_i2_3 e = (cellNSDofs e).map fun b =>
    (e.i2 * 5 + 3, b.1, ∑ p, ∑ q, v2 (e.a1 * e.d1 / (4 * e.Ac)) (-(e.a1 * e.c1) / (4 * e.Ac)) p * (e.Ac * m2 e.E44 e.E45 e.E55 p q) * b.2 q) := by
  simp only [cellNS_i2_3, cellNSDofs,
    List.map_cons, List.map_nil, Fin.sum_univ_two, v2_0, v2_1, m2_00, m2_01, m2_10, m2_11]
  refine congrArg₂ List.cons ?_ (congrArg₂ List.cons ?_ (congrArg₂ List.cons ?_ (congrArg₂ List.cons ?_ (congrArg₂ List.cons ?_ (congrArg₂ List.cons ?_ (congrArg₂ List.cons ?_ (congrArg₂ List.cons ?_ (congrArg₂ List.cons ?_ rfl)))))))) <;>
  refine Prod.ext rfl (Prod.ext rfl ?_) <;> simp only [] <;> field_simp <;> ring

private theorem row_i2_4 (e : CellNSEnv ℝ) (hA : e.Ac ≠ 0) : cellNS_i2_4 e = (cellNSDofs e).map fun b =>
    (e.i2 * 5 + 4, b.1, ∑ p, ∑ q, v2 (e.b1 * e.d1 / (4 * e.Ac)) (-(e.b1 * e.c1) / (4 * e.Ac)) p * (e.Ac * m2 e.E44 e.E45 e.E55 p q) * b.2 q) := by
  simp only [cellNS_i2_4, cellNSDofs,
    List.map_cons, List.map_nil, Fin.sum_univ_two, v2_0, v2_1, m2_00, m2_01, m2_10, m2_11]
  refine congrArg₂ List.cons ?_ (congrArg₂ List.cons ?_ (congrArg₂ List.cons ?_ (congrArg₂ List.cons ?_ (congrArg₂ List.cons ?_ (congrArg₂ List.cons ?_ (congrArg₂ List.cons ?_ (congrArg₂ List.cons ?_ (congrArg₂ List.cons ?_ rfl)))))))) <;>
  refine Prod.ext rfl (Prod.ext rfl ?_) <;> simp only [] <;> field_simp <;> ring

private theorem row_i3_2 (e : CellNSEnv ℝ) (hA : e.Ac ≠ 0) : cellNS_i3_2 e = (cellNSDofs e).map fun b =>
    (e.i3 * 5 + 2, b.1, ∑ p, ∑ q, v2 (-e.b1 / (2 * e.Ac)) (e.a1 / (2 * e.Ac)) p * (e.Ac * m2 e.E44 e.E45 e.E55 p q) * b.2 q) := by
  simp only [cellNS_i3_2, cellNSDofs,
    List.map_cons, List.map_nil, Fin.sum_univ_two, v2_0, v2_1, m2_00, m2_01, m2_10, m2_11]
  refine congrArg₂ List.cons ?_ (congrArg₂ List.cons ?_ (congrArg₂ List.cons ?_ (congrArg₂ List.cons ?_ (congrArg₂ List.cons ?_ (congrArg₂ List.cons ?_ (congrArg₂ List.cons ?_ (congrArg₂ List.cons ?_ (congrArg₂ List.cons ?_ rfl)))))))) <;>
  refine Prod.ext rfl (Prod.ext rfl ?_) <;> simp only [] <;> field_simp <;> ring

private theorem row_i3_3 (e : CellNSEnv ℝ) (hA : e.Ac ≠ 0) : cellNS_i3_3 e = (cellNSDofs e).map fun b =>
    (e.i3 * 5 + 3, b.1, ∑ p, ∑ q, v2 (-(e.b1 * e.c1) / (4 * e.Ac)) (e.a1 * e.c1 / (4 * e.Ac)) p * (e.Ac * m2 e.E44 e.E45 e.E55 p q) * b.2 q) := by
  simp only [cellNS_i3_3, cellNSDofs,
    List.map_cons, List.map_nil, Fin.sum_univ_two, v2_0, v2_1, m2_00, m2_01, m2_10, m2_11]
  refine congrArg₂ List.cons ?_ (congrArg₂ List.cons ?_ (congrArg₂ List.cons ?_ (congrArg₂ List.cons ?_ (congrArg₂ List.cons ?_ (congrArg₂ List.cons ?_ (congrArg₂ List.cons ?_ (congrArg₂ List.cons ?_ (congrArg₂ List.cons ?_ rfl)))))))) <;>
  refine Prod.ext rfl (Prod.ext rfl ?_) <;> simp only [] <;> field_simp <;> ring

private theorem row_i3_4 (e : CellNSEnv ℝ) (hA : e.Ac ≠ 0) : cellNS_i3_4 e = (cellNSDofs e).map fun b =>
    (e.i3 * 5 + 4, b.1, ∑ p, ∑ q, v2 (-(e.b1 * e.d1) / (4 * e.Ac)) (e.a1 * e.d1 / (4 * e.Ac)) p * (e.Ac * m2 e.E44 e.E45 e.E55 p q) * b.2 q) := by
  simp only [cellNS_i3_4, cellNSDofs,
    List.map_cons, List.map_nil, Fin.sum_univ_two, v2_0, v2_1, m2_00, m2_01, m2_10, m2_11]
  refine congrArg₂ List.cons ?_ (congrArg₂ List.cons ?_ (congrArg₂ List.cons ?_ (congrArg₂ List.cons ?_ (congrArg₂ List.cons ?_ (congrArg₂ List.cons ?_ (congrArg₂ List.cons ?_ (congrArg₂ List.cons ?_ (congrArg₂ List.cons ?_ rfl)))))))) <;>
  refine Prod.ext rfl (Prod.ext rfl ?_) <;> simp only [] <;> field_simp <;> ring

/-- The 81 pasted lines are the outer product of the shear columns with `Ac * [E44 E45; E45 E55]`. -/
theorem cellNSEntries_eq (e : CellNSEnv ℝ) (hA : e.Ac ≠ 0) :
    cellNSEntries e = outer (fun p q => e.Ac * m2 e.E44 e.E45 e.E55 p q) (cellNSDofs e) := by
  have h : ∀ l : List (ℤ × (Fin 2 → ℝ)), l = cellNSDofs e → outer (fun p q => e.Ac * m2 e.E44 e.E45 e.E55 p q) l =
      ([(e.i1 * 5 + 2, v2 ((e.b1 - e.d1) / (2 * e.Ac)) ((e.c1 - e.a1) / (2 * e.Ac))), (e.i1 * 5 + 3, v2 (1 / 2) (0)), (e.i1 * 5 + 4, v2 (0) (1 / 2)), (e.i2 * 5 + 2, v2 (e.d1 / (2 * e.Ac)) (-e.c1 / (2 * e.Ac))), (e.i2 * 5 + 3, v2 (e.a1 * e.d1 / (4 * e.Ac)) (-(e.a1 * e.c1) / (4 * e.Ac))), (e.i2 * 5 + 4, v2 (e.b1 * e.d1 / (4 * e.Ac)) (-(e.b1 * e.c1) / (4 * e.Ac))), (e.i3 * 5 + 2, v2 (-e.b1 / (2 * e.Ac)) (e.a1 / (2 * e.Ac))), (e.i3 * 5 + 3, v2 (-(e.b1 * e.c1) / (4 * e.Ac)) (e.a1 * e.c1 / (4 * e.Ac))), (e.i3 * 5 + 4, v2 (-(e.b1 * e.d1) / (4 * e.Ac)) (e.a1 * e.d1 / (4 * e.Ac)))] : List (ℤ × (Fin 2 → ℝ))).flatMap
        fun a => l.map fun b => (a.1, b.1, ∑ p, ∑ q, a.2 p * (e.Ac * m2 e.E44 e.E45 e.E55 p q) * b.2 q) := by
    rintro _ rfl; rfl
  rw [h _ rfl]
  simp only [cellNSEntries, row_i1_2 e hA, row_i1_3 e hA, row_i1_4 e hA, row_i2_2 e hA, row_i2_3 e hA, row_i2_4 e hA, row_i3_2 e hA, row_i3_3 e hA, row_i3_4 e hA]
  generalize cellNSDofs e = l
  simp only [List.flatMap_cons, List.flatMap_nil, List.append_nil, List.append_assoc]

end Meshless
