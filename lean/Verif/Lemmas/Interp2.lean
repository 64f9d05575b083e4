import Verif.Lemmas.Interp
import Mathlib.Algebra.BigOperators.Fin

set_option autoImplicit false

namespace Meshless
open Finset

theorem sum_zipIdx (l : List ℝ) (f : ℝ × ℕ → ℝ) : (l.zipIdx.map f).sum = ∑ i : Fin l.length, f (l[i], i) := by
  rw [← Fin.sum_univ_getElem]
  refine Fintype.sum_equiv (finCongr (by simp)) _ _ fun i => ?_
  simp

theorem prod_zipIdx (l : List ℝ) (f : ℝ × ℕ → ℝ) : (l.zipIdx.map f).prod = ∏ i : Fin l.length, f (l[i], i) := by
  rw [← Fin.prod_univ_getElem]
  refine Fintype.prod_equiv (finCongr (by simp)) _ _ fun i => ?_
  simp

/-- the factor product with indices -/
noncomputable def lagF (x : ℝ) {n : ℕ} (v : Fin n → ℝ) (m : Fin n) : ℝ :=
  ∏ i : Fin n, if i ≠ m ∧ v m - v i ≠ 0 then (x - v i) / (v m - v i) else 1

theorem lagS_eq (x : ℝ) (l : List ℝ) (m : Fin l.length) : lagS x m l[m] l.zipIdx = lagF x (fun i => l[i]) m := by
  unfold lagS lagF
  rw [prod_zipIdx]
  refine Finset.prod_congr rfl fun i _ => ?_
  simp [lagFactor, Fin.ext_iff]

theorem interp2S_eq (x y : ℝ) (xs ys : List ℝ) (fld : ℕ → ℕ → ℝ) :
    interp2S x y xs ys fld = ∑ m : Fin xs.length, ∑ n : Fin ys.length,
      lagF x (fun i => xs[i]) m * lagF y (fun i => ys[i]) n * fld m n := by
  unfold interp2S
  rw [sum_zipIdx]
  refine Finset.sum_congr rfl fun m _ => ?_
  rw [sum_zipIdx]
  refine Finset.sum_congr rfl fun n _ => ?_
  simp only [lagS_eq]

/-- the factor product is the Lagrange basis polynomial when the nodes are distinct -/
theorem lagF_basis (x : ℝ) {n : ℕ} (v : Fin n → ℝ) (hv : Function.Injective v) (m : Fin n) :
    lagF x v m = (Lagrange.basis univ v m).eval x := by
  unfold lagF Lagrange.basis
  rw [Polynomial.eval_prod, ← Finset.prod_erase univ (a := m) (by simp)]
  refine Finset.prod_congr rfl fun i hi => ?_
  have h1 : i ≠ m := (Finset.mem_erase.1 hi).1
  have h2 : v m - v i ≠ 0 := sub_ne_zero.2 fun h => h1 (hv h).symm
  rw [if_pos ⟨h1, h2⟩]
  simp [Lagrange.basisDivisor]
  field_simp

theorem lagF_node {n : ℕ} (v : Fin n → ℝ) (hv : Function.Injective v) (m k : Fin n) :
    lagF (v k) v m = if m = k then 1 else 0 := by
  rw [lagF_basis _ v hv]
  split
  · rename_i h; subst h
    exact Lagrange.eval_basis_self hv.injOn (mem_univ _)
  · rename_i h
    exact Lagrange.eval_basis_of_ne h (mem_univ _)

theorem lagF_exact (x : ℝ) {n : ℕ} (v : Fin n → ℝ) (hv : Function.Injective v) (p : Polynomial ℝ) (hp : p.degree < n) :
    ∑ m, lagF x v m * p.eval (v m) = p.eval x := by
  have h := Lagrange.eq_interpolate (s := univ) (v := v) (f := p) hv.injOn (by simpa using hp)
  conv_rhs => rw [h]
  rw [Lagrange.interpolate_apply, Polynomial.eval_finsetSum]
  refine Finset.sum_congr rfl fun m _ => ?_
  rw [lagF_basis _ v hv]
  simp [mul_comm]

theorem lagF_pow (x : ℝ) {n : ℕ} (v : Fin n → ℝ) (hv : Function.Injective v) (a : Fin n) :
    ∑ m, lagF x v m * v m ^ (a : ℕ) = x ^ (a : ℕ) := by
  have := lagF_exact x v hv (Polynomial.X ^ (a : ℕ)) (by
    rw [Polynomial.degree_X_pow]; exact_mod_cast a.2)
  simpa using this

theorem lagF_perm (x : ℝ) {n n' : ℕ} (v : Fin n → ℝ) (w : Fin n' → ℝ) (σ : Fin n ≃ Fin n') (h : ∀ i, w (σ i) = v i) (m : Fin n) :
    lagF x w (σ m) = lagF x v m := by
  unfold lagF
  refine (Fintype.prod_equiv σ _ _ fun i => ?_).symm
  simp [h]

theorem getElem_injective {l : List ℝ} (h : l.Nodup) : Function.Injective fun i : Fin l.length => l[i] := by
  intro i j hij
  exact Fin.ext ((List.Nodup.getElem_inj_iff h).1 hij)

/-- `lagS z a.2 a.1 ys.zipIdx` of the 3-D code, indexed -/
noncomputable def lagG (z : ℝ) (p : ℕ) (zp : ℝ) {n : ℕ} (v : Fin n → ℝ) : ℝ :=
  ∏ i : Fin n, if (i : ℕ) ≠ p ∧ zp - v i ≠ 0 then (z - v i) / (zp - v i) else 1

theorem lagS_eq_lagG (z : ℝ) (p : ℕ) (zp : ℝ) (l : List ℝ) : lagS z p zp l.zipIdx = lagG z p zp fun i : Fin l.length => l[i] := by
  unfold lagS lagG
  rw [prod_zipIdx]
  refine Finset.prod_congr rfl fun i _ => ?_
  simp [lagFactor]

theorem interp3S_eq (x y z : ℝ) (xs ys zs : List ℝ) (fld : ℕ → ℕ → ℕ → ℝ) :
    interp3S x y z xs ys zs fld = ∑ m : Fin xs.length, ∑ n : Fin ys.length, ∑ p : Fin zs.length,
      lagF x (fun i => xs[i]) m * lagF y (fun i => ys[i]) n * lagG z p zs[p] (fun i : Fin ys.length => ys[i]) * fld m n p := by
  unfold interp3S
  rw [sum_zipIdx]
  refine Finset.sum_congr rfl fun m _ => ?_
  rw [sum_zipIdx]
  refine Finset.sum_congr rfl fun n _ => ?_
  rw [sum_zipIdx]
  refine Finset.sum_congr rfl fun p _ => ?_
  rw [lagS_eq, lagS_eq, lagS_eq_lagG]

end Meshless
