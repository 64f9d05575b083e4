import Verif.Lemmas.GenK0
import Verif.Model.Gen.EdgeB
import Mathlib.Tactic.FieldSimp

/-! Written by /verif/tools/genlem.py. -/

set_option autoImplicit false

namespace Meshless

/-- rounding of the pasted coefficient `0.0277777777777778`, where `0.166666666666667 ^ 2` would make the matrix symmetric -/
noncomputable def eps1 : ℝ := 0.0277777777777778 - 0.166666666666667 * 0.166666666666667
/-- rounding of the pasted coefficient `0.0138888888888889`, where `0.166666666666667 * 0.0833333333333333` would -/
noncomputable def eps2 : ℝ := 0.0138888888888889 - 0.166666666666667 * 0.0833333333333333

/-- rounding of the pasted coefficient `0.0416666666666667`, where `0.166666666666667 / 4` would -/
noncomputable def eps3 : ℝ := 0.0416666666666667 - 0.166666666666667 / 4

/-- a vector of eight components -/
def v8 {α : Type} (x0 x1 x2 x3 x4 x5 x6 x7 : α) : Fin 8 → α
  | 0 => x0 | 1 => x1 | 2 => x2 | 3 => x3 | 4 => x4 | 5 => x5 | 6 => x6 | 7 => x7

section
variable {α : Type} (x0 x1 x2 x3 x4 x5 x6 x7 : α)
theorem v8_0 : v8 x0 x1 x2 x3 x4 x5 x6 x7 0 = x0 := rfl
theorem v8_1 : v8 x0 x1 x2 x3 x4 x5 x6 x7 1 = x1 := rfl
theorem v8_2 : v8 x0 x1 x2 x3 x4 x5 x6 x7 2 = x2 := rfl
theorem v8_3 : v8 x0 x1 x2 x3 x4 x5 x6 x7 3 = x3 := rfl
theorem v8_4 : v8 x0 x1 x2 x3 x4 x5 x6 x7 4 = x4 := rfl
theorem v8_5 : v8 x0 x1 x2 x3 x4 x5 x6 x7 5 = x5 := rfl
theorem v8_6 : v8 x0 x1 x2 x3 x4 x5 x6 x7 6 = x6 := rfl
theorem v8_7 : v8 x0 x1 x2 x3 x4 x5 x6 x7 7 = x7 := rfl
end

theorem sum8 (f : Fin 8 → ℝ) : ∑ i, f i = f 0 + f 1 + f 2 + f 3 + f 4 + f 5 + f 6 + f 7 := Fin.sum_univ_eight f

/-- `a * [E44 E45; E45 E55]` between components 0-1, `[E44 E45; E45 E55]` between components 2-3 (rows) and 4-5 (columns)
and between components 6-7 (rows) and 2-3 (columns) -/
noncomputable def cE (a E44 E45 E55 : ℝ) (p q : Fin 8) : ℝ :=
  v8 (v8 (a * E44) (a * E45) 0 0 0 0 0 0 q) (v8 (a * E45) (a * E55) 0 0 0 0 0 0 q) (v8 0 0 0 0 E44 E45 0 0 q) (v8 0 0 0 0 E45 E55 0 0 q) 0 0
    (v8 0 0 E44 E45 0 0 0 0 q) (v8 0 0 E45 E55 0 0 0 0 q) p

theorem sumE (a E44 E45 E55 x0 x1 x2 x3 x4 x5 x6 x7 y0 y1 y2 y3 y4 y5 y6 y7 : ℝ) :
    ∑ p, ∑ q, v8 x0 x1 x2 x3 x4 x5 x6 x7 p * cE a E44 E45 E55 p q * v8 y0 y1 y2 y3 y4 y5 y6 y7 q =
      a * (x0 * (E44 * y0 + E45 * y1) + x1 * (E45 * y0 + E55 * y1)) + (x2 * (E44 * y4 + E45 * y5) + x3 * (E45 * y4 + E55 * y5)) +
        (x6 * (E44 * y2 + E45 * y3) + x7 * (E45 * y2 + E55 * y3)) := by
  simp only [sum8, cE, v8_0, v8_1, v8_2, v8_3, v8_4, v8_5, v8_6, v8_7]
  ring

/-- shear columns of the dofs, and the columns of the rounding residue -/
noncomputable def edgeBDofs (e : EdgeBEnv ℝ) : List (ℤ × (Fin 8 → ℝ)) := [
  (e.i1 * 5 + 2, v8 (e.d1 / (2 * e.Ac) + 0.166666666666667 * (e.b1 - e.d1) / e.Ac) (-e.c1 / (2 * e.Ac) + 0.166666666666667 * (-e.a1 + e.c1) / e.Ac) (0) (0) (0) (0) (0) (0)),
  (e.i1 * 5 + 3, v8 (0.166666666666667 + e.a1 * e.d1 / (4 * e.Ac)) (-(e.a1 * e.c1) / (4 * e.Ac)) (0) (0) (0) (eps3 * (-(e.a1 * e.c1))) (0) (eps3 * (-(e.a1 * e.c1)))),
  (e.i1 * 5 + 4, v8 (e.b1 * e.d1 / (4 * e.Ac)) (0.166666666666667 - e.b1 * e.c1 / (4 * e.Ac)) (0) (0) (eps3 * (e.b1 * e.d1)) (0) (eps3 * (e.b1 * e.d1)) (0)),
  (e.i2 * 5 + 2, v8 (-e.b1 / (2 * e.Ac) + 0.166666666666667 * (e.b1 - e.d1) / e.Ac) (e.a1 / (2 * e.Ac) + 0.166666666666667 * (-e.a1 + e.c1) / e.Ac) (0) (0) (0) (0) (0) (0)),
  (e.i2 * 5 + 3, v8 (0.166666666666667 - e.b1 * e.c1 / (4 * e.Ac)) (e.a1 * e.c1 / (4 * e.Ac)) (0) (0) (0) (eps3 * (e.a1 * e.c1)) (0) (eps3 * (e.a1 * e.c1))),
  (e.i2 * 5 + 4, v8 (-(e.b1 * e.d1) / (4 * e.Ac)) (0.166666666666667 + e.a1 * e.d1 / (4 * e.Ac)) (0) (0) (eps3 * (-(e.b1 * e.d1))) (0) (eps3 * (-(e.b1 * e.d1))) (0)),
  (e.i3 * 5 + 2, v8 (0.166666666666667 * (e.b1 - e.d1) / e.Ac) (0.166666666666667 * (-e.a1 + e.c1) / e.Ac) (0) (0) (eps1 * (e.b1 - e.d1)) (eps1 * (-e.a1 + e.c1)) (0) (0)),
  (e.i3 * 5 + 3, v8 (0.166666666666667) (0) (1) (0) (eps1 * e.Ac) (0) (0) (0)),
  (e.i3 * 5 + 4, v8 (0) (0.166666666666667) (0) (1) (0) (eps1 * e.Ac) (0) (0))]

private theorem row_i1_2 (e : EdgeBEnv ℝ) (hA : e.Ac ≠ 0) : edgeB_i1_2 e = (edgeBDofs e).map fun b =>
    (e.i1 * 5 + 2, b.1, ∑ p, ∑ q, v8 (e.d1 / (2 * e.Ac) + 0.166666666666667 * (e.b1 - e.d1) / e.Ac) (-e.c1 / (2 * e.Ac) + 0.166666666666667 * (-e.a1 + e.c1) / e.Ac) (0) (0) (0) (0) (0) (0) p * cE (e.Ac) e.E44 e.E45 e.E55 p q * b.2 q) := by
  simp only [edgeB_i1_2, edgeBDofs, List.map_cons, List.map_nil, sumE, eps1, eps2, eps3]
  refine congrArg₂ List.cons ?_ (congrArg₂ List.cons ?_ (congrArg₂ List.cons ?_ (congrArg₂ List.cons ?_ (congrArg₂ List.cons ?_ (congrArg₂ List.cons ?_ (congrArg₂ List.cons ?_ (congrArg₂ List.cons ?_ (congrArg₂ List.cons ?_ rfl)))))))) <;>
  refine Prod.ext rfl (Prod.ext rfl ?_) <;> simp only [] <;> field_simp <;> ring

private theorem row_i1_3 (e : EdgeBEnv ℝ) (hA : e.Ac ≠ 0) : edgeB_i1_3 e = (edgeBDofs e).map fun b =>
    (e.i1 * 5 + 3, b.1, ∑ p, ∑ q, v8 (0.166666666666667 + e.a1 * e.d1 / (4 * e.Ac)) (-(e.a1 * e.c1) / (4 * e.Ac)) (0) (0) (0) (eps3 * (-(e.a1 * e.c1))) (0) (eps3 * (-(e.a1 * e.c1))) p * cE (e.Ac) e.E44 e.E45 e.E55 p q * b.2 q) := by
  simp only [edgeB_i1_3, edgeBDofs, List.map_cons, List.map_nil, sumE, eps1, eps2, eps3]
  refine congrArg₂ List.cons ?_ (congrArg₂ List.cons ?_ (congrArg₂ List.cons ?_ (congrArg₂ List.cons ?_ (congrArg₂ List.cons ?_ (congrArg₂ List.cons ?_ (congrArg₂ List.cons ?_ (congrArg₂ List.cons ?_ (congrArg₂ List.cons ?_ rfl)))))))) <;>
  refine Prod.ext rfl (Prod.ext rfl ?_) <;> simp only [] <;> field_simp <;> ring

private theorem row_i1_4 (e : EdgeBEnv ℝ) (hA : e.Ac ≠ 0) : edgeB_i1_4 e = (edgeBDofs e).map fun b =>
    (e.i1 * 5 + 4, b.1, ∑ p, ∑ q, v8 (e.b1 * e.d1 / (4 * e.Ac)) (0.166666666666667 - e.b1 * e.c1 / (4 * e.Ac)) (0) (0) (eps3 * (e.b1 * e.d1)) (0) (eps3 * (e.b1 * e.d1)) (0) p * cE (e.Ac) e.E44 e.E45 e.E55 p q * b.2 q) := by
  simp only [edgeB_i1_4, edgeBDofs, List.map_cons, List.map_nil, sumE, eps1, eps2, eps3]
  refine congrArg₂ List.cons ?_ (congrArg₂ List.cons ?_ (congrArg₂ List.cons ?_ (congrArg₂ List.cons ?_ (congrArg₂ List.cons ?_ (congrArg₂ List.cons ?_ (congrArg₂ List.cons ?_ (congrArg₂ List.cons ?_ (congrArg₂ List.cons ?_ rfl)))))))) <;>
  refine Prod.ext rfl (Prod.ext rfl ?_) <;> simp only [] <;> field_simp <;> ring

private theorem row_i2_2 (e : EdgeBEnv ℝ) (hA : e.Ac ≠ 0) : edgeB_i2_2 e = (edgeBDofs e).map fun b =>
    (e.i2 * 5 + 2, b.1, ∑ p, ∑ q, v8 (-e.b1 / (2 * e.Ac) + 0.166666666666667 * (e.b1 - e.d1) / e.Ac) (e.a1 / (2 * e.Ac) + 0.166666666666667 * (-e.a1 + e.c1) / e.Ac) (0) (0) (0) (0) (0) (0) p * cE (e.Ac) e.E44 e.E45 e.E55 p q * b.2 q) := by
  simp only [edgeB_i2_2, edgeBDofs, List.map_cons, List.map_nil, sumE, eps1, eps2, eps3]
  refine congrArg₂ List.cons ?_ (congrArg₂ List.cons ?_ (congrArg₂ List.cons ?_ (congrArg₂ List.cons ?_ (congrArg₂ List.cons ?_ (congrArg₂ List.cons ?_ (congrArg₂ List.cons ?_ (congrArg₂ List.cons ?_ (congrArg₂ List.cons ?_ rfl)))))))) <;>
  refine Prod.ext rfl (Prod.ext rfl ?_) <;> simp only [] <;> field_simp <;> ring

private theorem row_i2_3 (e : EdgeBEnv ℝ) (hA : e.Ac ≠ 0) : edgeB_i2_3 e = (edgeBDofs e).map fun b =>
    (e.i2 * 5 + 3, b.1, ∑ p, ∑ q, v8 (0.166666666666667 - e.b1 * e.c1 / (4 * e.Ac)) (e.a1 * e.c1 / (4 * e.Ac)) (0) (0) (0) (eps3 * (e.a1 * e.c1)) (0) (eps3 * (e.a1 * e.c1)) p * cE (e.Ac) e.E44 e.E45 e.E55 p q * b.2 q) := by
  simp only [edgeB_i2_3, edgeBDofs, List.map_cons, List.map_nil, sumE, eps1, eps2, eps3]
  refine congrArg₂ List.cons ?_ (congrArg₂ List.cons ?_ (congrArg₂ List.cons ?_ (congrArg₂ List.cons ?_ (congrArg₂ List.cons ?_ (congrArg₂ List.cons ?_ (congrArg₂ List.cons ?_ (congrArg₂ List.cons ?_ (congrArg₂ List.cons ?_ rfl)))))))) <;>
  refine Prod.ext rfl (Prod.ext rfl ?_) <;> simp only [] <;> field_simp <;> ring

private theorem row_i2_4 (e : EdgeBEnv ℝ) (hA : e.Ac ≠ 0) : edgeB_i2_4 e = (edgeBDofs e).map fun b =>
    (e.i2 * 5 + 4, b.1, ∑ p, ∑ q, v8 (-(e.b1 * e.d1) / (4 * e.Ac)) (0.166666666666667 + e.a1 * e.d1 / (4 * e.Ac)) (0) (0) (eps3 * (-(e.b1 * e.d1))) (0) (eps3 * (-(e.b1 * e.d1))) (0) p * cE (e.Ac) e.E44 e.E45 e.E55 p q * b.2 q) := by
  simp only [edgeB_i2_4, edgeBDofs, List.map_cons, List.map_nil, sumE, eps1, eps2, eps3]
  refine congrArg₂ List.cons ?_ (congrArg₂ List.cons ?_ (congrArg₂ List.cons ?_ (congrArg₂ List.cons ?_ (congrArg₂ List.cons ?_ (congrArg₂ List.cons ?_ (congrArg₂ List.cons ?_ (congrArg₂ List.cons ?_ (congrArg₂ List.cons ?_ rfl)))))))) <;>
  refine Prod.ext rfl (Prod.ext rfl ?_) <;> simp only [] <;> field_simp <;> ring

private theorem row_i3_2 (e : EdgeBEnv ℝ) (hA : e.Ac ≠ 0) : edgeB_i3_2 e = (edgeBDofs e).map fun b =>
    (e.i3 * 5 + 2, b.1, ∑ p, ∑ q, v8 (0.166666666666667 * (e.b1 - e.d1) / e.Ac) (0.166666666666667 * (-e.a1 + e.c1) / e.Ac) (0) (0) (eps1 * (e.b1 - e.d1)) (eps1 * (-e.a1 + e.c1)) (0) (0) p * cE (e.Ac) e.E44 e.E45 e.E55 p q * b.2 q) := by
  simp only [edgeB_i3_2, edgeBDofs, List.map_cons, List.map_nil, sumE, eps1, eps2, eps3]
  refine congrArg₂ List.cons ?_ (congrArg₂ List.cons ?_ (congrArg₂ List.cons ?_ (congrArg₂ List.cons ?_ (congrArg₂ List.cons ?_ (congrArg₂ List.cons ?_ (congrArg₂ List.cons ?_ (congrArg₂ List.cons ?_ (congrArg₂ List.cons ?_ rfl)))))))) <;>
  refine Prod.ext rfl (Prod.ext rfl ?_) <;> simp only [] <;> field_simp <;> ring

private theorem row_i3_3 (e : EdgeBEnv ℝ) (hA : e.Ac ≠ 0) : edgeB_i3_3 e = (edgeBDofs e).map fun b =>
    (e.i3 * 5 + 3, b.1, ∑ p, ∑ q, v8 (0.166666666666667) (0) (1) (0) (eps1 * e.Ac) (0) (0) (0) p * cE (e.Ac) e.E44 e.E45 e.E55 p q * b.2 q) := by
  simp only [edgeB_i3_3, edgeBDofs, List.map_cons, List.map_nil, sumE, eps1, eps2, eps3]
  refine congrArg₂ List.cons ?_ (congrArg₂ List.cons ?_ (congrArg₂ List.cons ?_ (congrArg₂ List.cons ?_ (congrArg₂ List.cons ?_ (congrArg₂ List.cons ?_ (congrArg₂ List.cons ?_ (congrArg₂ List.cons ?_ (congrArg₂ List.cons ?_ rfl)))))))) <;>
  refine Prod.ext rfl (Prod.ext rfl ?_) <;> simp only [] <;> field_simp <;> ring

private theorem row_i3_4 (e : EdgeBEnv ℝ) (hA : e.Ac ≠ 0) : edgeB_i3_4 e = (edgeBDofs e).map fun b =>
    (e.i3 * 5 + 4, b.1, ∑ p, ∑ q, v8 (0) (0.166666666666667) (0) (1) (0) (eps1 * e.Ac) (0) (0) p * cE (e.Ac) e.E44 e.E45 e.E55 p q * b.2 q) := by
  simp only [edgeB_i3_4, edgeBDofs, List.map_cons, List.map_nil, sumE, eps1, eps2, eps3]
  refine congrArg₂ List.cons ?_ (congrArg₂ List.cons ?_ (congrArg₂ List.cons ?_ (congrArg₂ List.cons ?_ (congrArg₂ List.cons ?_ (congrArg₂ List.cons ?_ (congrArg₂ List.cons ?_ (congrArg₂ List.cons ?_ (congrArg₂ List.cons ?_ rfl)))))))) <;>
  refine Prod.ext rfl (Prod.ext rfl ?_) <;> simp only [] <;> field_simp <;> ring

/-- The 81 pasted lines, up to the two rounded coefficients, are the outer product of the shear columns. -/
theorem edgeBEntries_eq (e : EdgeBEnv ℝ) (hA : e.Ac ≠ 0) : edgeBEntries e = outer (cE (e.Ac) e.E44 e.E45 e.E55) (edgeBDofs e) := by
  have h : ∀ l : List (ℤ × (Fin 8 → ℝ)), l = edgeBDofs e → outer (cE (e.Ac) e.E44 e.E45 e.E55) l =
      ([(e.i1 * 5 + 2, v8 (e.d1 / (2 * e.Ac) + 0.166666666666667 * (e.b1 - e.d1) / e.Ac) (-e.c1 / (2 * e.Ac) + 0.166666666666667 * (-e.a1 + e.c1) / e.Ac) (0) (0) (0) (0) (0) (0)), (e.i1 * 5 + 3, v8 (0.166666666666667 + e.a1 * e.d1 / (4 * e.Ac)) (-(e.a1 * e.c1) / (4 * e.Ac)) (0) (0) (0) (eps3 * (-(e.a1 * e.c1))) (0) (eps3 * (-(e.a1 * e.c1)))), (e.i1 * 5 + 4, v8 (e.b1 * e.d1 / (4 * e.Ac)) (0.166666666666667 - e.b1 * e.c1 / (4 * e.Ac)) (0) (0) (eps3 * (e.b1 * e.d1)) (0) (eps3 * (e.b1 * e.d1)) (0)), (e.i2 * 5 + 2, v8 (-e.b1 / (2 * e.Ac) + 0.166666666666667 * (e.b1 - e.d1) / e.Ac) (e.a1 / (2 * e.Ac) + 0.166666666666667 * (-e.a1 + e.c1) / e.Ac) (0) (0) (0) (0) (0) (0)), (e.i2 * 5 + 3, v8 (0.166666666666667 - e.b1 * e.c1 / (4 * e.Ac)) (e.a1 * e.c1 / (4 * e.Ac)) (0) (0) (0) (eps3 * (e.a1 * e.c1)) (0) (eps3 * (e.a1 * e.c1))), (e.i2 * 5 + 4, v8 (-(e.b1 * e.d1) / (4 * e.Ac)) (0.166666666666667 + e.a1 * e.d1 / (4 * e.Ac)) (0) (0) (eps3 * (-(e.b1 * e.d1))) (0) (eps3 * (-(e.b1 * e.d1))) (0)), (e.i3 * 5 + 2, v8 (0.166666666666667 * (e.b1 - e.d1) / e.Ac) (0.166666666666667 * (-e.a1 + e.c1) / e.Ac) (0) (0) (eps1 * (e.b1 - e.d1)) (eps1 * (-e.a1 + e.c1)) (0) (0)), (e.i3 * 5 + 3, v8 (0.166666666666667) (0) (1) (0) (eps1 * e.Ac) (0) (0) (0)), (e.i3 * 5 + 4, v8 (0) (0.166666666666667) (0) (1) (0) (eps1 * e.Ac) (0) (0))] : List (ℤ × (Fin 8 → ℝ))).flatMap
        fun a => l.map fun b => (a.1, b.1, ∑ p, ∑ q, a.2 p * cE (e.Ac) e.E44 e.E45 e.E55 p q * b.2 q) := by
    rintro _ rfl; rfl
  rw [h _ rfl]
  simp only [edgeBEntries, row_i1_2 e hA, row_i1_3 e hA, row_i1_4 e hA, row_i2_2 e hA, row_i2_3 e hA, row_i2_4 e hA, row_i3_2 e hA, row_i3_3 e hA, row_i3_4 e hA]
  generalize edgeBDofs e = l
  simp only [List.flatMap_cons, List.flatMap_nil, List.append_nil, List.append_assoc]

end Meshless
