import Verif.Lemmas.Mat
import Verif.Model.Gen.KG
import Mathlib.Algebra.BigOperators.Fin

/-! Written by /verif/tools/genlem.py. -/

set_option autoImplicit false

namespace Meshless

/-- weighted boundary sum `Σ_k f_kp le_k nx_k` -/
noncomputable def KGEnv.X (e : KGEnv ℝ) : Fin 4 → ℝ := ![
  e.f11 * e.le1 * e.nx1 + e.f21 * e.le2 * e.nx2 + e.f31 * e.le3 * e.nx3 + e.f41 * e.le4 * e.nx4,
  e.f12 * e.le1 * e.nx1 + e.f22 * e.le2 * e.nx2 + e.f32 * e.le3 * e.nx3 + e.f42 * e.le4 * e.nx4,
  e.f13 * e.le1 * e.nx1 + e.f23 * e.le2 * e.nx2 + e.f33 * e.le3 * e.nx3 + e.f43 * e.le4 * e.nx4,
  e.f14 * e.le1 * e.nx1 + e.f24 * e.le2 * e.nx2 + e.f34 * e.le3 * e.nx3 + e.f44 * e.le4 * e.nx4]

/-- weighted boundary sum `Σ_k f_kp le_k ny_k` -/
noncomputable def KGEnv.Y (e : KGEnv ℝ) : Fin 4 → ℝ := ![
  e.f11 * e.le1 * e.ny1 + e.f21 * e.le2 * e.ny2 + e.f31 * e.le3 * e.ny3 + e.f41 * e.le4 * e.ny4,
  e.f12 * e.le1 * e.ny1 + e.f22 * e.le2 * e.ny2 + e.f32 * e.le3 * e.ny3 + e.f42 * e.le4 * e.ny4,
  e.f13 * e.le1 * e.ny1 + e.f23 * e.le2 * e.ny2 + e.f33 * e.le3 * e.ny3 + e.f43 * e.le4 * e.ny4,
  e.f14 * e.le1 * e.ny1 + e.f24 * e.le2 * e.ny2 + e.f34 * e.le3 * e.ny3 + e.f44 * e.le4 * e.ny4]

private theorem X0_def (e : KGEnv ℝ) : e.f11 * e.le1 * e.nx1 + e.f21 * e.le2 * e.nx2 + e.f31 * e.le3 * e.nx3 + e.f41 * e.le4 * e.nx4 = e.X 0 := rfl
private theorem X1_def (e : KGEnv ℝ) : e.f12 * e.le1 * e.nx1 + e.f22 * e.le2 * e.nx2 + e.f32 * e.le3 * e.nx3 + e.f42 * e.le4 * e.nx4 = e.X 1 := rfl
private theorem X2_def (e : KGEnv ℝ) : e.f13 * e.le1 * e.nx1 + e.f23 * e.le2 * e.nx2 + e.f33 * e.le3 * e.nx3 + e.f43 * e.le4 * e.nx4 = e.X 2 := rfl
private theorem X3_def (e : KGEnv ℝ) : e.f14 * e.le1 * e.nx1 + e.f24 * e.le2 * e.nx2 + e.f34 * e.le3 * e.nx3 + e.f44 * e.le4 * e.nx4 = e.X 3 := rfl
private theorem Y0_def (e : KGEnv ℝ) : e.f11 * e.le1 * e.ny1 + e.f21 * e.le2 * e.ny2 + e.f31 * e.le3 * e.ny3 + e.f41 * e.le4 * e.ny4 = e.Y 0 := rfl
private theorem Y1_def (e : KGEnv ℝ) : e.f12 * e.le1 * e.ny1 + e.f22 * e.le2 * e.ny2 + e.f32 * e.le3 * e.ny3 + e.f42 * e.le4 * e.ny4 = e.Y 1 := rfl
private theorem Y2_def (e : KGEnv ℝ) : e.f13 * e.le1 * e.ny1 + e.f23 * e.le2 * e.ny2 + e.f33 * e.le3 * e.ny3 + e.f43 * e.le4 * e.ny4 = e.Y 2 := rfl
private theorem Y3_def (e : KGEnv ℝ) : e.f14 * e.le1 * e.ny1 + e.f24 * e.le2 * e.ny2 + e.f34 * e.le3 * e.ny3 + e.f44 * e.le4 * e.ny4 = e.Y 3 := rfl

/-- a vector with two given entries -/
def v2 (a b : ℝ) : Fin 2 → ℝ := ![a, b]
theorem v2_0 (a b : ℝ) : v2 a b 0 = a := rfl
theorem v2_1 (a b : ℝ) : v2 a b 1 = b := rfl
/-- a symmetric 2 × 2 matrix -/
def m2 (a b c : ℝ) : Fin 2 → Fin 2 → ℝ := ![![a, b], ![b, c]]
theorem m2_00 (a b c : ℝ) : m2 a b c 0 0 = a := rfl
theorem m2_01 (a b c : ℝ) : m2 a b c 0 1 = b := rfl
theorem m2_10 (a b c : ℝ) : m2 a b c 1 0 = b := rfl
theorem m2_11 (a b c : ℝ) : m2 a b c 1 1 = c := rfl

/-- gradient columns of the four transverse dofs -/
noncomputable def kGDofs (e : KGEnv ℝ) : List (ℤ × (Fin 2 → ℝ)) := [
  (e.i1 * 5 + 2, v2 (e.X 0 / e.Ac) (e.Y 0 / e.Ac)),
  (e.i2 * 5 + 2, v2 (e.X 1 / e.Ac) (e.Y 1 / e.Ac)),
  (e.i3 * 5 + 2, v2 (e.X 2 / e.Ac) (e.Y 2 / e.Ac)),
  (e.i4 * 5 + 2, v2 (e.X 3 / e.Ac) (e.Y 3 / e.Ac))]

/-- The 16 pasted lines are the outer product of the gradient columns with `Ac * [Nxx Nxy; Nxy Nyy]`. -/
theorem kGEntries_eq (e : KGEnv ℝ) :
    kGEntries e = outer (fun p q => e.Ac * m2 e.Nxx e.Nxy e.Nyy p q) (kGDofs e) := by
  simp only [kGEntries, kG_i1_2, kG_i2_2, kG_i3_2, kG_i4_2, outer, kGDofs, List.flatMap_cons, List.flatMap_nil,
    List.map_cons, List.map_nil, List.cons_append, List.nil_append, List.append_nil, Fin.sum_univ_two,
    X0_def, X1_def, X2_def, X3_def, Y0_def, Y1_def, Y2_def, Y3_def, v2_0, v2_1, m2_00, m2_01, m2_10, m2_11]
  refine congrArg₂ List.cons ?_ (congrArg₂ List.cons ?_ (congrArg₂ List.cons ?_ (congrArg₂ List.cons ?_ (congrArg₂ List.cons ?_ (congrArg₂ List.cons ?_ (congrArg₂ List.cons ?_ (congrArg₂ List.cons ?_ (congrArg₂ List.cons ?_ (congrArg₂ List.cons ?_ (congrArg₂ List.cons ?_ (congrArg₂ List.cons ?_ (congrArg₂ List.cons ?_ (congrArg₂ List.cons ?_ (congrArg₂ List.cons ?_ (congrArg₂ List.cons ?_ rfl))))))))))))))) <;>
  refine Prod.ext rfl (Prod.ext rfl ?_) <;> simp only [] <;> ring

end Meshless
