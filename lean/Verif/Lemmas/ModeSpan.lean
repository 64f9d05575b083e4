import Verif.Lemmas.PlateMode
import Mathlib.LinearAlgebra.FiniteDimensional.Lemmas
import Mathlib.Algebra.Order.Chebyshev
import Mathlib.Algebra.Order.BigOperators.Ring.Finset

/-! Displacements that nearly solve an eigenproblem and the span of the modes with nearby factors. -/

set_option autoImplicit false

namespace Meshless
open Spec Finset

section
variable {n : ℕ} {K G : ℕ → ℕ → ℝ} {S : Set ℕ} {T : Type} [Fintype T] {p : T → ℕ → ℝ} {μ : T → ℝ}

theorem form_combo {ι : Type} (s : Finset ι) (A : ℕ → ℕ → ℝ) (r : ι → ℝ) (q : ι → ℕ → ℝ) (u : ℕ → ℝ) : form n A (fun j => ∑ i ∈ s, r i * q i j) u = ∑ i ∈ s, r i * form n A (q i) u ∧
    form n A u (fun j => ∑ i ∈ s, r i * q i j) = ∑ i ∈ s, r i * form n A u (q i) := by
  unfold form
  constructor
  · simp only [mul_sum, sum_mul]
    rw [Finset.sum_congr rfl fun i _ => Finset.sum_comm, Finset.sum_comm]
    exact Finset.sum_congr rfl fun b _ => Finset.sum_congr rfl fun i _ => Finset.sum_congr rfl fun j _ => by ring
  · simp only [mul_sum]
    rw [Finset.sum_congr rfl fun i _ => Finset.sum_comm, Finset.sum_comm]
    exact Finset.sum_congr rfl fun b _ => Finset.sum_congr rfl fun i _ => Finset.sum_congr rfl fun j _ => by ring

theorem modal_expand (hm : Modal n K G S T p μ) {z : ℕ → ℝ} (hz : Supported n S z) (A : ℕ → ℕ → ℝ) (v : ℕ → ℝ) : form n A v z = ∑ i, form n K (p i) z * form n A v (p i) := by
  rw [← (form_combo univ A (fun i => form n K (p i) z) p v).2]
  unfold form
  exact Finset.sum_congr rfl fun i _ => Finset.sum_congr rfl fun j hj => by
    rw [hm.expand z hz j (mem_range.1 hj)]; rfl

theorem modal_energy (hm : Modal n K G S T p μ) (hK : ∀ i < n, ∀ j < n, K i j = K j i) {z : ℕ → ℝ} (hz : Supported n S z) : form n K z z = ∑ i, form n K (p i) z ^ 2 := by
  rw [modal_expand hm hz]
  exact Finset.sum_congr rfl fun i _ => by rw [form_comm hK z (p i), pow_two]

/-- the components of a displacement that nearly solves the eigenproblem, weighted with the distance of the factors -/
theorem modal_residual (hm : Modal n K G S T p μ) {z : ℕ → ℝ} (hz : Supported n S z) {lam ρ : ℝ} (h0 : 0 ≤ ρ)
    (hρ : ∀ v, Supported n S v → (form n K v z + lam * form n G v z) ^ 2 ≤ ρ * form n K v v) : ∑ i, (form n K (p i) z * (1 + lam * μ i)) ^ 2 ≤ ρ := by
  classical
  obtain ⟨r, hr⟩ : ∃ r : T → ℝ, r = fun i => form n K (p i) z * (1 + lam * μ i) := ⟨_, rfl⟩
  have pG : ∀ i, form n G (p i) z = μ i * form n K (p i) z := fun i => by
    rw [modal_expand hm hz, Finset.sum_eq_single i (fun b _ hb => by rw [hm.gorth i b (Ne.symm hb), mul_zero]) (by simp), hm.geo]; ring
  have hv : Supported n S fun j => ∑ i, r i * p i j := fun j hj hS => Finset.sum_eq_zero fun i _ => by rw [hm.sup i j hj hS, mul_zero]
  have key := hρ _ hv
  have e1 : form n K (fun j => ∑ i, r i * p i j) z + lam * form n G (fun j => ∑ i, r i * p i j) z = ∑ i, r i ^ 2 := by
    rw [(form_combo univ K r p z).1, (form_combo univ G r p z).1, mul_sum, ← Finset.sum_add_distrib]
    refine Finset.sum_congr rfl fun i _ => ?_
    rw [pG, hr]
    ring
  have e2 : form n K (fun j => ∑ i, r i * p i j) (fun j => ∑ i, r i * p i j) = ∑ i, r i ^ 2 := by
    rw [(form_combo univ K r p _).1]
    refine Finset.sum_congr rfl fun i _ => ?_
    rw [(form_combo univ K r p (p i)).2, Finset.sum_eq_single i (fun b _ hb => by rw [hm.orth i b (Ne.symm hb), mul_zero]) (by simp), hm.self]; ring
  rw [e1, e2] at key
  have hr0 : 0 ≤ ∑ i, r i ^ 2 := Finset.sum_nonneg fun i _ => sq_nonneg _
  have : ∑ i, r i ^ 2 ≤ ρ := by
    rcases hr0.eq_or_lt with h | h
    · rw [← h]; exact h0
    · rw [pow_two] at key
      exact le_of_mul_le_mul_right key h
  rwa [hr] at this

/-- what is left of a displacement after its components in a set of modes are taken away -/
theorem modal_rest (hm : Modal n K G S T p μ) (hK : ∀ i < n, ∀ j < n, K i j = K j i) {z : ℕ → ℝ} (hz : Supported n S z) (J : T → Prop) [DecidablePred J] :
    form n K (fun j => z j - ∑ i with J i, form n K (p i) z * p i j) (fun j => z j - ∑ i with J i, form n K (p i) z * p i j) = ∑ i with ¬ J i, form n K (p i) z ^ 2 := by
  classical
  have hs : Supported n S (fun j => z j - ∑ i with J i, form n K (p i) z * p i j) := fun j hj hS => by
    beta_reduce
    rw [hz j hj hS, Finset.sum_eq_zero fun i _ => by rw [hm.sup i j hj hS, mul_zero], sub_zero]
  rw [modal_energy hm hK hs, Finset.sum_filter]
  refine Finset.sum_congr rfl fun i _ => ?_
  have : form n K (p i) (fun j => z j - ∑ i with J i, form n K (p i) z * p i j) = if J i then 0 else form n K (p i) z := by
    rw [form_sub_right, (form_combo _ K _ p (p i)).2]
    split_ifs with h
    · rw [Finset.sum_eq_single i (fun b _ hb => by rw [hm.orth i b (Ne.symm hb), mul_zero]) (fun hn => absurd (mem_filter.2 ⟨mem_univ i, h⟩) hn), hm.self, mul_one, sub_self]
    · rw [Finset.sum_eq_zero fun b hb => by rw [hm.orth i b fun hib => h (hib ▸ (mem_filter.1 hb).2), mul_zero], sub_zero]
  rw [this]
  split_ifs with h <;> simp

/-- a displacement that nearly solves the eigenproblem is close to the span of the modes with factors close to `lam` -/
theorem modes_span (hm : Modal n K G S T p μ) (hK : ∀ i < n, ∀ j < n, K i j = K j i) {z : ℕ → ℝ} (hz : Supported n S z) {lam ρ δ : ℝ} (h0 : 0 ≤ ρ) (hδ : 0 < δ)
    (hρ : ∀ v, Supported n S v → (form n K v z + lam * form n G v z) ^ 2 ≤ ρ * form n K v v) [DecidablePred fun i : T => |1 + lam * μ i| < δ] :
    δ ^ 2 * form n K (fun j => z j - ∑ i with |1 + lam * μ i| < δ, form n K (p i) z * p i j) (fun j => z j - ∑ i with |1 + lam * μ i| < δ, form n K (p i) z * p i j) ≤ ρ := by
  rw [modal_rest hm hK hz, mul_sum]
  refine le_trans ?_ (modal_residual hm hz h0 hρ)
  refine (Finset.sum_le_sum fun i hi => ?_).trans (Finset.sum_le_sum_of_subset_of_nonneg (filter_subset _ _) fun i _ _ => sq_nonneg _)
  have h1 := not_lt.1 (mem_filter.1 hi).2
  have h2 := pow_le_pow_left₀ hδ.le h1 2
  rw [sq_abs] at h2
  rw [mul_pow, mul_comm]
  exact mul_le_mul_of_nonneg_left h2 (sq_nonneg _)

/-- `k` independent displacements that nearly solve the eigenproblem: at least `k` modes have factors close to `lam` -/
theorem modes_many (hm : Modal n K G S T p μ) (hK : ∀ i < n, ∀ j < n, K i j = K j i) {k : ℕ} {z : Fin k → ℕ → ℝ} (hz : ∀ i, Supported n S (z i)) {lam ρ δ γ : ℝ} (h0 : 0 ≤ ρ) (hδ : 0 < δ)
    (hρ : ∀ i v, Supported n S v → (form n K v (z i) + lam * form n G v (z i)) ^ 2 ≤ ρ * form n K v v)
    (hγ : ∀ c : Fin k → ℝ, γ * ∑ i, c i ^ 2 ≤ form n K (fun j => ∑ i, c i * z i j) (fun j => ∑ i, c i * z i j)) (hlt : k * ρ < δ ^ 2 * γ) [DecidablePred fun i : T => |1 + lam * μ i| < δ] :
    k ≤ Fintype.card {i : T // |1 + lam * μ i| < δ} := by
  classical
  by_contra hcon
  push Not at hcon
  let L : (Fin k → ℝ) →ₗ[ℝ] ({i : T // |1 + lam * μ i| < δ} → ℝ) :=
    { toFun := fun c a => ∑ i, c i * form n K (p a.1) (z i)
      map_add' := fun c c' => by
        funext a
        simp only [Pi.add_apply]
        rw [← Finset.sum_add_distrib]
        exact Finset.sum_congr rfl fun i _ => by ring
      map_smul' := fun t c => by
        funext a
        simp only [Pi.smul_apply, smul_eq_mul, RingHom.id_apply, mul_sum]
        exact Finset.sum_congr rfl fun i _ => by ring }
  have hker : LinearMap.ker L ≠ ⊥ := LinearMap.ker_ne_bot_of_finrank_lt (by rw [Module.finrank_fintype_fun_eq_card, Module.finrank_fintype_fun_eq_card, Fintype.card_fin]; exact hcon)
  obtain ⟨c, hc, hc0⟩ := (Submodule.ne_bot_iff _).1 hker
  have hc' : ∀ a : {i : T // |1 + lam * μ i| < δ}, ∑ i, c i * form n K (p a.1) (z i) = 0 := fun a => congrFun (LinearMap.mem_ker.1 hc) a
  have hs : Supported n S (fun j => ∑ i, c i * z i j) := fun j hj hS => Finset.sum_eq_zero fun i _ => by rw [hz i j hj hS, mul_zero]
  have hcs : 0 < ∑ i, c i ^ 2 := by
    obtain ⟨i, hi⟩ := Function.ne_iff.1 hc0
    exact Finset.sum_pos' (fun i _ => sq_nonneg _) ⟨i, mem_univ _, by have : c i ≠ 0 := hi; positivity⟩
  have hres : ∀ v, Supported n S v → (form n K v (fun j => ∑ i, c i * z i j) + lam * form n G v (fun j => ∑ i, c i * z i j)) ^ 2 ≤ ((∑ i, c i ^ 2) * (k * ρ)) * form n K v v := fun v hv => by
    rw [(form_combo univ K c z v).2, (form_combo univ G c z v).2, mul_sum, ← Finset.sum_add_distrib,
      Finset.sum_congr rfl fun i _ => show c i * form n K v (z i) + lam * (c i * form n G v (z i)) = c i * (form n K v (z i) + lam * form n G v (z i)) by ring]
    refine (Finset.sum_mul_sq_le_sq_mul_sq univ c _).trans ?_
    rw [mul_assoc]
    refine mul_le_mul_of_nonneg_left ?_ hcs.le
    refine (Finset.sum_le_sum fun i _ => hρ i v hv).trans (le_of_eq ?_)
    rw [Finset.sum_const, Finset.card_univ, Fintype.card_fin, nsmul_eq_mul]; ring
  have h1 := modes_span hm hK hs (by positivity) hδ hres
  have h2 : (fun j => (∑ i, c i * z i j) - ∑ i with |1 + lam * μ i| < δ, form n K (p i) (fun j => ∑ i, c i * z i j) * p i j) = fun j => ∑ i, c i * z i j := by
    funext j
    refine (congrArg _ (Finset.sum_eq_zero fun i hi => ?_)).trans (sub_zero _)
    rw [(form_combo univ K c z (p i)).2, hc' ⟨i, (mem_filter.1 hi).2⟩, zero_mul]
  simp only [h2] at h1
  have h3 := (mul_le_mul_of_nonneg_left (hγ c) (sq_nonneg δ)).trans h1
  have h4 := mul_lt_mul_of_pos_left hlt hcs
  linarith

end

end Meshless
