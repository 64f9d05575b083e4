import Verif.Lemmas.Pencil
import Mathlib.Analysis.Matrix.PosDef
import Mathlib.LinearAlgebra.Matrix.NonsingularInverse

/-! Symmetric pencils: a basis of the displacements that vanish at the supports, orthonormal for `K` and orthogonal for `G`. -/

set_option autoImplicit false

namespace Meshless
open Spec Finset

section
variable {T : Type} [Fintype T] [DecidableEq T]
open Matrix

/-- a symmetric matrix becomes diagonal by an orthogonal change of basis -/
theorem sym_diag (A : Matrix T T ℝ) (hA : A.IsHermitian) : ∃ (U : Matrix T T ℝ) (e : T → ℝ), Uᵀ * U = 1 ∧ Uᵀ * A * U = diagonal e ∧ (A.PosDef → ∀ i, 0 < e i) := by
  refine ⟨hA.eigenvectorUnitary, hA.eigenvalues, ?_, ?_, fun h i => ?_⟩
  · have := Unitary.coe_star_mul_self hA.eigenvectorUnitary
    rwa [star_eq_conjTranspose, conjTranspose_eq_transpose_of_trivial] at this
  · have := hA.conjStarAlgAut_star_eigenvectorUnitary
    rw [Unitary.conjStarAlgAut_star_apply, star_eq_conjTranspose, conjTranspose_eq_transpose_of_trivial] at this
    rw [this]
    rfl
  · exact h.eigenvalues_pos i

/-- simultaneous diagonalisation of a positive definite and a symmetric matrix -/
theorem simul_diag (K G : Matrix T T ℝ) (hK : K.PosDef) (hG : G.IsHermitian) : ∃ (P : Matrix T T ℝ) (μ : T → ℝ), Pᵀ * K * P = 1 ∧ Pᵀ * G * P = diagonal μ ∧
    P * (Pᵀ * K) = 1 := by
  obtain ⟨V, e, v1, v2, v3⟩ := sym_diag K hK.isHermitian
  have hv := v3 hK
  set D := diagonal fun i => 1 / √(e i) with hD
  have hDt : Dᵀ = D := diagonal_transpose _
  have hG' : G.IsHermitian := hG
  set A := (V * D)ᵀ * G * (V * D) with hA
  have hAh : A.IsHermitian := by
    unfold Matrix.IsHermitian at hG ⊢
    rw [conjTranspose_eq_transpose_of_trivial] at hG ⊢
    rw [hA]
    simp only [transpose_mul, transpose_transpose, hG, Matrix.mul_assoc]
  obtain ⟨U, μ, u1, u2, -⟩ := sym_diag A hAh
  have h1 : (V * D * U)ᵀ * K * (V * D * U) = 1 := by
    have : (V * D * U)ᵀ * K * (V * D * U) = Uᵀ * (Dᵀ * (Vᵀ * K * V) * D) * U := by
      simp only [transpose_mul, Matrix.mul_assoc]
    rw [this, v2, hDt]
    have : D * diagonal e * D = 1 := by
      rw [hD, diagonal_mul_diagonal, diagonal_mul_diagonal, ← diagonal_one]
      congr 1
      funext i
      have := Real.mul_self_sqrt (hv i).le
      have h0 := Real.sqrt_pos.2 (hv i)
      field_simp
      nlinarith
    rw [this, Matrix.mul_one, u1]
  refine ⟨V * D * U, μ, h1, ?_, ?_⟩
  · rw [← u2, hA]
    simp only [transpose_mul, Matrix.mul_assoc]
  · exact mul_eq_one_comm.1 (by rw [Matrix.mul_assoc] at h1 ⊢; exact h1)

end

/-- Modal basis: displacements `p a` that vanish at the supports, orthonormal for `K` and orthogonal for `G`, in which every displacement that
vanishes at the supports has an expansion. -/
structure Modal (n : ℕ) (K G : ℕ → ℕ → ℝ) (S : Set ℕ) (T : Type) [Fintype T] (p : T → ℕ → ℝ) (μ : T → ℝ) : Prop where
  sup : ∀ a, Supported n S (p a)
  self : ∀ a, form n K (p a) (p a) = 1
  orth : ∀ a b, a ≠ b → form n K (p a) (p b) = 0
  geo : ∀ a, form n G (p a) (p a) = μ a
  gorth : ∀ a b, a ≠ b → form n G (p a) (p b) = 0
  expand : ∀ x, Supported n S x → ∀ i < n, x i = ∑ a, form n K (p a) x * p a i

/-- the free degrees of freedom -/
abbrev FreeDof (n : ℕ) (S : Set ℕ) := {i : Fin n // (i : ℕ) ∉ S}

theorem sum_free {n : ℕ} {S : Set ℕ} [Fintype (FreeDof n S)] (g : ℕ → ℝ) (h : ∀ i < n, i ∈ S → g i = 0) : ∑ i ∈ range n, g i = ∑ i : FreeDof n S, g i.1 := by
  classical
  rw [Finset.sum_range, ← Finset.sum_subtype (univ.filter fun i : Fin n => (i:ℕ) ∉ S) (by simp) (fun i : Fin n => g i)]
  symm
  refine Finset.sum_subset (Finset.subset_univ _) fun i _ hi => h i i.2 ?_
  simpa using hi

/-- a displacement given by its values at the free degrees of freedom -/
noncomputable def fromFree {n : ℕ} {S : Set ℕ} (x : FreeDof n S → ℝ) (i : ℕ) : ℝ := by
  classical
  exact if h : ∃ hi : i < n, i ∉ S then x ⟨⟨i, h.1⟩, h.2⟩ else 0

theorem fromFree_coe {n : ℕ} {S : Set ℕ} (x : FreeDof n S → ℝ) (i : FreeDof n S) : fromFree x i.1 = x i := by
  unfold fromFree; rw [dif_pos ⟨i.1.2, i.2⟩]

theorem fromFree_sup {n : ℕ} {S : Set ℕ} (x : FreeDof n S → ℝ) : Supported n S (fromFree x) := by
  intro i hi hS
  unfold fromFree; rw [dif_neg]; rintro ⟨_, h⟩; exact h hS

theorem form_free {n : ℕ} {S : Set ℕ} [Fintype (FreeDof n S)] (K : ℕ → ℕ → ℝ) {x y : ℕ → ℝ} (hx : Supported n S x) (hy : Supported n S y) :
    form n K x y = ∑ i : FreeDof n S, ∑ j : FreeDof n S, x i.1 * K i.1 j.1 * y j.1 := by
  unfold form
  rw [sum_free (S := S) (fun i => ∑ j ∈ range n, x i * K i j * y j) fun i hi hS => by simp [hx i hi hS]]
  refine Finset.sum_congr rfl fun i _ => ?_
  exact sum_free (S := S) (fun j => x i.1 * K i.1 j * y j) fun j hj hS => by rw [hy j hj hS, mul_zero]

open Matrix in
/-- a pencil whose `K` is positive definite on the supported displacements has a modal basis, with as many members as there are free degrees of freedom -/
theorem modal_exists {n : ℕ} {K G : ℕ → ℕ → ℝ} (hK : ∀ i < n, ∀ j < n, K i j = K j i) (hG : ∀ i < n, ∀ j < n, G i j = G j i) (S : Set ℕ)
    (hpd : ∀ x, Supported n S x → (∃ i < n, x i ≠ 0) → 0 < form n K x x) : ∃ (_ : Fintype (FreeDof n S)) (p : FreeDof n S → ℕ → ℝ) (μ : FreeDof n S → ℝ), Modal n K G S (FreeDof n S) p μ := by
  classical
  let Kf : Matrix (FreeDof n S) (FreeDof n S) ℝ := Matrix.of fun i j => K i.1 j.1
  let Gf : Matrix (FreeDof n S) (FreeDof n S) ℝ := Matrix.of fun i j => G i.1 j.1
  have hKf : Kf.PosDef := by
    refine .of_dotProduct_mulVec_pos ?_ fun x hx => ?_
    · ext i j
      simp only [Kf, conjTranspose_eq_transpose_of_trivial, transpose_apply, of_apply]
      exact hK _ j.1.2 _ i.1.2
    · have h := hpd (fromFree x) (fromFree_sup x) (by
        by_contra hcon
        push Not at hcon
        refine hx (funext fun i => ?_)
        rw [← fromFree_coe x i]; exact hcon _ i.1.2)
      rw [form_free K (fromFree_sup x) (fromFree_sup x)] at h
      simpa [fromFree_coe, dotProduct, mulVec, Kf, Finset.mul_sum, mul_assoc] using h
  have hGf : Gf.IsHermitian := by
    ext i j
    simp only [Gf, conjTranspose_eq_transpose_of_trivial, transpose_apply, of_apply]
    exact hG _ j.1.2 _ i.1.2
  obtain ⟨P, μ, h1, h2, h3⟩ := simul_diag Kf Gf hKf hGf
  have key : ∀ (A : ℕ → ℕ → ℝ) (a b : FreeDof n S), form n A (fromFree fun i => P i a) (fromFree fun i => P i b) = (Pᵀ * Matrix.of (fun i j : FreeDof n S => A i.1 j.1) * P) a b := by
    intro A a b
    rw [form_free A (fromFree_sup _) (fromFree_sup _), Matrix.mul_assoc, Matrix.mul_apply]
    refine Finset.sum_congr rfl fun i _ => ?_
    rw [Matrix.mul_apply, Finset.mul_sum]
    refine Finset.sum_congr rfl fun j _ => ?_
    simp only [fromFree_coe, transpose_apply, of_apply]; ring
  refine ⟨inferInstance, fun a => fromFree fun i => P i a, μ, fun a => fromFree_sup _, fun a => ?_, fun a b hab => ?_, fun a => ?_, fun a b hab => ?_, fun x hx i hi => ?_⟩
  · rw [key K a a]; exact (congrFun (congrFun h1 a) a).trans (Matrix.one_apply_eq a)
  · rw [key K a b]; exact (congrFun (congrFun h1 a) b).trans (Matrix.one_apply_ne hab)
  · rw [key G a a]; exact (congrFun (congrFun h2 a) a).trans (Matrix.diagonal_apply_eq _ a)
  · rw [key G a b]; exact (congrFun (congrFun h2 a) b).trans (Matrix.diagonal_apply_ne _ hab)
  · by_cases hS : i ∈ S
    · rw [hx i hi hS]
      symm
      exact Finset.sum_eq_zero fun a _ => by rw [fromFree_sup _ i hi hS, mul_zero]
    · have h := congrFun (congrArg (fun M => M *ᵥ fun j : FreeDof n S => x j.1) h3) ⟨⟨i, hi⟩, hS⟩
      rw [one_mulVec, ← mulVec_mulVec] at h
      rw [← h]
      simp only [mulVec, dotProduct]
      refine Finset.sum_congr rfl fun a _ => ?_
      rw [form_free K (fromFree_sup _) hx]
      have e : fromFree (fun i => P i a) i = P ⟨⟨i, hi⟩, hS⟩ a := fromFree_coe (fun i => P i a) ⟨⟨i, hi⟩, hS⟩
      rw [e, mul_comm]
      congr 1
      rw [Finset.sum_comm]
      refine Finset.sum_congr rfl fun j _ => ?_
      rw [Matrix.mul_apply, Finset.sum_mul]
      refine Finset.sum_congr rfl fun r _ => ?_
      simp only [fromFree_coe, transpose_apply, Kf, of_apply]

end Meshless
