import Verif.Lemmas.Mat
import Mathlib.Algebra.BigOperators.Fin

set_option autoImplicit false

namespace Meshless

/-- weighted boundary sum `Σ_k f_kp le_k nx_k` for position `p = 1..4` -/
noncomputable def K0Env.X (e : K0Env ℝ) : Fin 4 → ℝ := ![
  e.f11 * e.le1 * e.nx1 + e.f21 * e.le2 * e.nx2 + e.f31 * e.le3 * e.nx3 + e.f41 * e.le4 * e.nx4,
  e.f12 * e.le1 * e.nx1 + e.f22 * e.le2 * e.nx2 + e.f32 * e.le3 * e.nx3 + e.f42 * e.le4 * e.nx4,
  e.f13 * e.le1 * e.nx1 + e.f23 * e.le2 * e.nx2 + e.f33 * e.le3 * e.nx3 + e.f43 * e.le4 * e.nx4,
  e.f14 * e.le1 * e.nx1 + e.f24 * e.le2 * e.nx2 + e.f34 * e.le3 * e.nx3 + e.f44 * e.le4 * e.nx4]
noncomputable def K0Env.Y (e : K0Env ℝ) : Fin 4 → ℝ := ![
  e.f11 * e.le1 * e.ny1 + e.f21 * e.le2 * e.ny2 + e.f31 * e.le3 * e.ny3 + e.f41 * e.le4 * e.ny4,
  e.f12 * e.le1 * e.ny1 + e.f22 * e.le2 * e.ny2 + e.f32 * e.le3 * e.ny3 + e.f42 * e.le4 * e.ny4,
  e.f13 * e.le1 * e.ny1 + e.f23 * e.le2 * e.ny2 + e.f33 * e.le3 * e.ny3 + e.f43 * e.le4 * e.ny4,
  e.f14 * e.le1 * e.ny1 + e.f24 * e.le2 * e.ny2 + e.f34 * e.le3 * e.ny3 + e.f44 * e.le4 * e.ny4]

/-- `[A B; B D]` with the entries the code reads -/
noncomputable def K0Env.abd (e : K0Env ℝ) : Fin 6 → Fin 6 → ℝ := ![
  ![e.A11, e.A12, e.A16, e.B11, e.B12, e.B16],
  ![e.A12, e.A22, e.A26, e.B12, e.B22, e.B26],
  ![e.A16, e.A26, e.A66, e.B16, e.B26, e.B66],
  ![e.B11, e.B12, e.B16, e.D11, e.D12, e.D16],
  ![e.B12, e.B22, e.B26, e.D12, e.D22, e.D26],
  ![e.B16, e.B26, e.B66, e.D16, e.D26, e.D66]]

/-- a vector with six given entries -/
def v6 (a b c d e f : ℝ) : Fin 6 → ℝ := ![a, b, c, d, e, f]
section
variable (a b c d e f : ℝ)
theorem v6_0 : v6 a b c d e f 0 = a := rfl
theorem v6_1 : v6 a b c d e f 1 = b := rfl
theorem v6_2 : v6 a b c d e f 2 = c := rfl
theorem v6_3 : v6 a b c d e f 3 = d := rfl
theorem v6_4 : v6 a b c d e f 4 = e := rfl
theorem v6_5 : v6 a b c d e f 5 = f := rfl
end

/-- strain columns of the four active dofs at a node with boundary sums `X`, `Y` -/
noncomputable def k0Dofs4 (i : ℤ) (X Y Ac : ℝ) : List (ℤ × (Fin 6 → ℝ)) := [
  (i * 5 + 0, v6 (X / Ac) 0 (Y / Ac) 0 0 0),
  (i * 5 + 1, v6 0 (Y / Ac) (X / Ac) 0 0 0),
  (i * 5 + 3, v6 0 0 0 (X / Ac) 0 (Y / Ac)),
  (i * 5 + 4, v6 0 0 0 0 (Y / Ac) (X / Ac))]

noncomputable def k0Dofs (e : K0Env ℝ) : List (ℤ × (Fin 6 → ℝ)) :=
  k0Dofs4 e.i1 (e.X 0) (e.Y 0) e.Ac ++ k0Dofs4 e.i2 (e.X 1) (e.Y 1) e.Ac ++ k0Dofs4 e.i3 (e.X 2) (e.Y 2) e.Ac
    ++ k0Dofs4 e.i4 (e.X 3) (e.Y 3) e.Ac

private theorem X0_def (e : K0Env ℝ) : e.f11 * e.le1 * e.nx1 + e.f21 * e.le2 * e.nx2 + e.f31 * e.le3 * e.nx3 + e.f41 * e.le4 * e.nx4 = e.X 0 := rfl
private theorem X1_def (e : K0Env ℝ) : e.f12 * e.le1 * e.nx1 + e.f22 * e.le2 * e.nx2 + e.f32 * e.le3 * e.nx3 + e.f42 * e.le4 * e.nx4 = e.X 1 := rfl
private theorem X2_def (e : K0Env ℝ) : e.f13 * e.le1 * e.nx1 + e.f23 * e.le2 * e.nx2 + e.f33 * e.le3 * e.nx3 + e.f43 * e.le4 * e.nx4 = e.X 2 := rfl
private theorem X3_def (e : K0Env ℝ) : e.f14 * e.le1 * e.nx1 + e.f24 * e.le2 * e.nx2 + e.f34 * e.le3 * e.nx3 + e.f44 * e.le4 * e.nx4 = e.X 3 := rfl
private theorem Y0_def (e : K0Env ℝ) : e.f11 * e.le1 * e.ny1 + e.f21 * e.le2 * e.ny2 + e.f31 * e.le3 * e.ny3 + e.f41 * e.le4 * e.ny4 = e.Y 0 := rfl
private theorem Y1_def (e : K0Env ℝ) : e.f12 * e.le1 * e.ny1 + e.f22 * e.le2 * e.ny2 + e.f32 * e.le3 * e.ny3 + e.f42 * e.le4 * e.ny4 = e.Y 1 := rfl
private theorem Y2_def (e : K0Env ℝ) : e.f13 * e.le1 * e.ny1 + e.f23 * e.le2 * e.ny2 + e.f33 * e.le3 * e.ny3 + e.f43 * e.le4 * e.ny4 = e.Y 2 := rfl
private theorem Y3_def (e : K0Env ℝ) : e.f14 * e.le1 * e.ny1 + e.f24 * e.le2 * e.ny2 + e.f34 * e.le3 * e.ny3 + e.f44 * e.le4 * e.ny4 = e.Y 3 := rfl

theorem sum6 (f : Fin 6 → ℝ) : ∑ p, f p = f 0 + f 1 + f 2 + f 3 + f 4 + f 5 := by
  rw [Fin.sum_univ_castSucc, Fin.sum_univ_castSucc, Fin.sum_univ_four]; rfl

private theorem abd_sum (e : K0Env ℝ) (a b : Fin 6 → ℝ) : ∑ p, ∑ q, a p * (e.Ac * e.abd p q) * b q =
   (a 0 * (e.Ac * e.A11) * b 0 + a 0 * (e.Ac * e.A12) * b 1 + a 0 * (e.Ac * e.A16) * b 2 + a 0 * (e.Ac * e.B11) * b 3 + a 0 * (e.Ac * e.B12) * b 4 + a 0 * (e.Ac * e.B16) * b 5)
   + (a 1 * (e.Ac * e.A12) * b 0 + a 1 * (e.Ac * e.A22) * b 1 + a 1 * (e.Ac * e.A26) * b 2 + a 1 * (e.Ac * e.B12) * b 3 + a 1 * (e.Ac * e.B22) * b 4 + a 1 * (e.Ac * e.B26) * b 5)
   + (a 2 * (e.Ac * e.A16) * b 0 + a 2 * (e.Ac * e.A26) * b 1 + a 2 * (e.Ac * e.A66) * b 2 + a 2 * (e.Ac * e.B16) * b 3 + a 2 * (e.Ac * e.B26) * b 4 + a 2 * (e.Ac * e.B66) * b 5)
   + (a 3 * (e.Ac * e.B11) * b 0 + a 3 * (e.Ac * e.B12) * b 1 + a 3 * (e.Ac * e.B16) * b 2 + a 3 * (e.Ac * e.D11) * b 3 + a 3 * (e.Ac * e.D12) * b 4 + a 3 * (e.Ac * e.D16) * b 5)
   + (a 4 * (e.Ac * e.B12) * b 0 + a 4 * (e.Ac * e.B22) * b 1 + a 4 * (e.Ac * e.B26) * b 2 + a 4 * (e.Ac * e.D12) * b 3 + a 4 * (e.Ac * e.D22) * b 4 + a 4 * (e.Ac * e.D26) * b 5)
   + (a 5 * (e.Ac * e.B16) * b 0 + a 5 * (e.Ac * e.B26) * b 1 + a 5 * (e.Ac * e.B66) * b 2 + a 5 * (e.Ac * e.D16) * b 3 + a 5 * (e.Ac * e.D26) * b 4 + a 5 * (e.Ac * e.D66) * b 5) := by
  simp only [sum6]; rfl

local macro "row_tac" f:ident : tactic => `(tactic| (
  simp only [abd_sum, $f:ident, X0_def, X1_def, X2_def, X3_def, Y0_def, Y1_def, Y2_def, Y3_def, k0Dofs, k0Dofs4, List.map_cons,
    List.map_nil, List.cons_append, List.nil_append, v6_0, v6_1, v6_2, v6_3, v6_4, v6_5]
  refine congrArg₂ List.cons ?_ (congrArg₂ List.cons ?_ (congrArg₂ List.cons ?_ (congrArg₂ List.cons ?_
    (congrArg₂ List.cons ?_ (congrArg₂ List.cons ?_ (congrArg₂ List.cons ?_ (congrArg₂ List.cons ?_
    (congrArg₂ List.cons ?_ (congrArg₂ List.cons ?_ (congrArg₂ List.cons ?_ (congrArg₂ List.cons ?_
    (congrArg₂ List.cons ?_ (congrArg₂ List.cons ?_ (congrArg₂ List.cons ?_ (congrArg₂ List.cons ?_ rfl))))))))))))))) <;>
  refine Prod.ext rfl (Prod.ext rfl ?_) <;> simp only [] <;> ring))

private theorem row_0_0 (e : K0Env ℝ) : k0_i1_0 e = (k0Dofs e).map fun b =>
    (e.i1 * 5 + 0, b.1, ∑ p, ∑ q, (v6 (e.X 0 / e.Ac) 0 (e.Y 0 / e.Ac) 0 0 0) p * (e.Ac * e.abd p q) * b.2 q) := by
  row_tac k0_i1_0

private theorem row_0_1 (e : K0Env ℝ) : k0_i1_1 e = (k0Dofs e).map fun b =>
    (e.i1 * 5 + 1, b.1, ∑ p, ∑ q, (v6 0 (e.Y 0 / e.Ac) (e.X 0 / e.Ac) 0 0 0) p * (e.Ac * e.abd p q) * b.2 q) := by
  row_tac k0_i1_1

private theorem row_0_3 (e : K0Env ℝ) : k0_i1_3 e = (k0Dofs e).map fun b =>
    (e.i1 * 5 + 3, b.1, ∑ p, ∑ q, (v6 0 0 0 (e.X 0 / e.Ac) 0 (e.Y 0 / e.Ac)) p * (e.Ac * e.abd p q) * b.2 q) := by
  row_tac k0_i1_3

private theorem row_0_4 (e : K0Env ℝ) : k0_i1_4 e = (k0Dofs e).map fun b =>
    (e.i1 * 5 + 4, b.1, ∑ p, ∑ q, (v6 0 0 0 0 (e.Y 0 / e.Ac) (e.X 0 / e.Ac)) p * (e.Ac * e.abd p q) * b.2 q) := by
  row_tac k0_i1_4

private theorem row_1_0 (e : K0Env ℝ) : k0_i2_0 e = (k0Dofs e).map fun b =>
    (e.i2 * 5 + 0, b.1, ∑ p, ∑ q, (v6 (e.X 1 / e.Ac) 0 (e.Y 1 / e.Ac) 0 0 0) p * (e.Ac * e.abd p q) * b.2 q) := by
  row_tac k0_i2_0

private theorem row_1_1 (e : K0Env ℝ) : k0_i2_1 e = (k0Dofs e).map fun b =>
    (e.i2 * 5 + 1, b.1, ∑ p, ∑ q, (v6 0 (e.Y 1 / e.Ac) (e.X 1 / e.Ac) 0 0 0) p * (e.Ac * e.abd p q) * b.2 q) := by
  row_tac k0_i2_1

private theorem row_1_3 (e : K0Env ℝ) : k0_i2_3 e = (k0Dofs e).map fun b =>
    (e.i2 * 5 + 3, b.1, ∑ p, ∑ q, (v6 0 0 0 (e.X 1 / e.Ac) 0 (e.Y 1 / e.Ac)) p * (e.Ac * e.abd p q) * b.2 q) := by
  row_tac k0_i2_3

private theorem row_1_4 (e : K0Env ℝ) : k0_i2_4 e = (k0Dofs e).map fun b =>
    (e.i2 * 5 + 4, b.1, ∑ p, ∑ q, (v6 0 0 0 0 (e.Y 1 / e.Ac) (e.X 1 / e.Ac)) p * (e.Ac * e.abd p q) * b.2 q) := by
  row_tac k0_i2_4

private theorem row_2_0 (e : K0Env ℝ) : k0_i3_0 e = (k0Dofs e).map fun b =>
    (e.i3 * 5 + 0, b.1, ∑ p, ∑ q, (v6 (e.X 2 / e.Ac) 0 (e.Y 2 / e.Ac) 0 0 0) p * (e.Ac * e.abd p q) * b.2 q) := by
  row_tac k0_i3_0

private theorem row_2_1 (e : K0Env ℝ) : k0_i3_1 e = (k0Dofs e).map fun b =>
    (e.i3 * 5 + 1, b.1, ∑ p, ∑ q, (v6 0 (e.Y 2 / e.Ac) (e.X 2 / e.Ac) 0 0 0) p * (e.Ac * e.abd p q) * b.2 q) := by
  row_tac k0_i3_1

private theorem row_2_3 (e : K0Env ℝ) : k0_i3_3 e = (k0Dofs e).map fun b =>
    (e.i3 * 5 + 3, b.1, ∑ p, ∑ q, (v6 0 0 0 (e.X 2 / e.Ac) 0 (e.Y 2 / e.Ac)) p * (e.Ac * e.abd p q) * b.2 q) := by
  row_tac k0_i3_3

private theorem row_2_4 (e : K0Env ℝ) : k0_i3_4 e = (k0Dofs e).map fun b =>
    (e.i3 * 5 + 4, b.1, ∑ p, ∑ q, (v6 0 0 0 0 (e.Y 2 / e.Ac) (e.X 2 / e.Ac)) p * (e.Ac * e.abd p q) * b.2 q) := by
  row_tac k0_i3_4

private theorem row_3_0 (e : K0Env ℝ) : k0_i4_0 e = (k0Dofs e).map fun b =>
    (e.i4 * 5 + 0, b.1, ∑ p, ∑ q, (v6 (e.X 3 / e.Ac) 0 (e.Y 3 / e.Ac) 0 0 0) p * (e.Ac * e.abd p q) * b.2 q) := by
  row_tac k0_i4_0

private theorem row_3_1 (e : K0Env ℝ) : k0_i4_1 e = (k0Dofs e).map fun b =>
    (e.i4 * 5 + 1, b.1, ∑ p, ∑ q, (v6 0 (e.Y 3 / e.Ac) (e.X 3 / e.Ac) 0 0 0) p * (e.Ac * e.abd p q) * b.2 q) := by
  row_tac k0_i4_1

private theorem row_3_3 (e : K0Env ℝ) : k0_i4_3 e = (k0Dofs e).map fun b =>
    (e.i4 * 5 + 3, b.1, ∑ p, ∑ q, (v6 0 0 0 (e.X 3 / e.Ac) 0 (e.Y 3 / e.Ac)) p * (e.Ac * e.abd p q) * b.2 q) := by
  row_tac k0_i4_3

private theorem row_3_4 (e : K0Env ℝ) : k0_i4_4 e = (k0Dofs e).map fun b =>
    (e.i4 * 5 + 4, b.1, ∑ p, ∑ q, (v6 0 0 0 0 (e.Y 3 / e.Ac) (e.X 3 / e.Ac)) p * (e.Ac * e.abd p q) * b.2 q) := by
  row_tac k0_i4_4

/-- The 256 pasted lines are the outer product of the strain columns with `Ac * [A B; B D]`. -/
theorem k0Entries_eq (e : K0Env ℝ) : k0Entries e = outer (fun p q => e.Ac * e.abd p q) (k0Dofs e) := by
  have h : ∀ l : List (ℤ × (Fin 6 → ℝ)), l = k0Dofs e → outer (fun p q => e.Ac * e.abd p q) l =
      (k0Dofs4 e.i1 (e.X 0) (e.Y 0) e.Ac ++ k0Dofs4 e.i2 (e.X 1) (e.Y 1) e.Ac ++ k0Dofs4 e.i3 (e.X 2) (e.Y 2) e.Ac
        ++ k0Dofs4 e.i4 (e.X 3) (e.Y 3) e.Ac).flatMap fun a => l.map fun b =>
    (a.1, b.1, ∑ p, ∑ q, a.2 p * (e.Ac * e.abd p q) * b.2 q) := by rintro _ rfl; rfl
  rw [h _ rfl]
  simp only [k0Entries, row_0_0, row_0_1, row_0_3, row_0_4, row_1_0, row_1_1, row_1_3, row_1_4, row_2_0, row_2_1, row_2_3, row_2_4, row_3_0, row_3_1, row_3_3, row_3_4]
  generalize k0Dofs e = l
  simp only [k0Dofs4, List.cons_append, List.nil_append, List.flatMap_cons, List.flatMap_nil, List.append_nil, List.append_assoc]

end Meshless
