import Verif.Props.Static
import Verif.Spec.Buckling
import Mathlib.Analysis.Normed.Module.FiniteDimension
import Mathlib.Topology.Order.Compact

/-! Symmetric pencils `K + c G` with `K` positive definite on the displacements that vanish at the supports: the first buckling factor. -/

set_option autoImplicit false

namespace Meshless
open Spec Finset

theorem form_congr {n : ℕ} {K : ℕ → ℕ → ℝ} {v v' u u' : ℕ → ℝ} (hv : ∀ i < n, v i = v' i) (hu : ∀ i < n, u i = u' i) : form n K v u = form n K v' u' := by
  unfold form
  refine Finset.sum_congr rfl fun i hi => Finset.sum_congr rfl fun j hj => ?_
  rw [hv i (Finset.mem_range.1 hi), hu j (Finset.mem_range.1 hj)]

theorem form_add_mat (n : ℕ) (K G : ℕ → ℕ → ℝ) (a b : ℝ) (v u : ℕ → ℝ) : form n (fun i j => a * K i j + b * G i j) v u = a * form n K v u + b * form n G v u := by
  unfold form
  rw [Finset.mul_sum, Finset.mul_sum, ← Finset.sum_add_distrib]
  refine Finset.sum_congr rfl fun i _ => ?_
  rw [Finset.mul_sum, Finset.mul_sum, ← Finset.sum_add_distrib]
  exact Finset.sum_congr rfl fun j _ => by ring

/-- vectors of length `n` as functions on the natural numbers -/
def ext {n : ℕ} (x : Fin n → ℝ) : ℕ → ℝ := fun i => if h : i < n then x ⟨i, h⟩ else 0

theorem ext_smul {n : ℕ} (c : ℝ) (x : Fin n → ℝ) (i : ℕ) : ext (c • x) i = c * ext x i := by
  unfold ext; split <;> simp

theorem ext_restrict {n : ℕ} (z : ℕ → ℝ) {i : ℕ} (hi : i < n) : ext (n := n) (fun j => z j) i = z i := by unfold ext; rw [dif_pos hi]

theorem form_ext (n : ℕ) (K : ℕ → ℕ → ℝ) (x : Fin n → ℝ) : form n K (ext x) (ext x) = ∑ i : Fin n, ∑ j : Fin n, x i * K i j * x j := by
  unfold form
  rw [Finset.sum_range]
  refine Finset.sum_congr rfl fun i _ => ?_
  rw [Finset.sum_range]
  refine Finset.sum_congr rfl fun j _ => ?_
  simp [ext]

theorem form_ext_cont (n : ℕ) (K : ℕ → ℕ → ℝ) : Continuous fun x : Fin n → ℝ => form n K (ext x) (ext x) := by
  simp only [form_ext]
  fun_prop

theorem form_smul (n : ℕ) (K : ℕ → ℕ → ℝ) (c : ℝ) (x : ℕ → ℝ) : form n K (fun i => c * x i) (fun i => c * x i) = c * c * form n K x x := by
  unfold form
  rw [Finset.mul_sum]
  refine Finset.sum_congr rfl fun i _ => ?_
  rw [Finset.mul_sum]
  exact Finset.sum_congr rfl fun j _ => by ring

/-- a symmetric form, nonnegative on the supported displacements: a supported displacement without energy has no forces at the free degrees of freedom -/
theorem psd_kernel {n : ℕ} {H : ℕ → ℕ → ℝ} (hs : ∀ i < n, ∀ j < n, H i j = H j i) {S : Set ℕ} (hn : ∀ x, Supported n S x → 0 ≤ form n H x x) {y : ℕ → ℝ}
    (hy : Supported n S y) (h0 : form n H y y = 0) {i : ℕ} (hi : i < n) (hiS : i ∉ S) : ∑ j ∈ range n, H i j * y j = 0 := by
  rw [← form_row H hi]
  have hz : Supported n S (single i) := by
    intro j _ hj
    unfold single
    rw [if_neg]
    rintro rfl
    exact hiS hj
  have key : ∀ t : ℝ, 0 ≤ 2 * t * form n H (single i) y + t * t * form n H (single i) (single i) := by
    intro t
    have := hn (fun j => 1 * y j + t * single i j) (fun j hj hjS => by beta_reduce; rw [hy j hj hjS, hz j hj hjS]; ring)
    rw [form_comb, form_comb_left, form_comb_left, h0, form_symm hs y (single i)] at this
    linarith
  by_contra hne
  set b := form n H (single i) y
  set a := form n H (single i) (single i)
  have ha : 0 ≤ a := hn _ hz
  have := key (-b / (a + 1))
  have h1 : 2 * (-b / (a + 1)) * b + -b / (a + 1) * (-b / (a + 1)) * a = -(b * b) * (a + 2) / ((a + 1) * (a + 1)) := by
    field_simp
    ring
  rw [h1] at this
  have : -(b * b) * (a + 2) / ((a + 1) * (a + 1)) < 0 := by
    apply div_neg_of_neg_of_pos
    · have : 0 < b * b := mul_self_pos.2 hne
      nlinarith
    · positivity
  linarith

/-- the first positive factor of a pencil: it exists as soon as `G` is negative somewhere on the supported displacements -/
theorem first_factor {n : ℕ} {K G : ℕ → ℕ → ℝ} (hK : ∀ i < n, ∀ j < n, K i j = K j i) (hG : ∀ i < n, ∀ j < n, G i j = G j i) {S : Set ℕ}
    (hpd : ∀ x, Supported n S x → (∃ i < n, x i ≠ 0) → 0 < form n K x x) {z : ℕ → ℝ} (hz : Supported n S z) (hneg : form n G z z < 0) :
    ∃ c, 0 < c ∧ c * -form n G z z ≤ form n K z z ∧ (∀ x, Supported n S x → 0 ≤ form n K x x + c * form n G x x) ∧ ∃ y, Supported n S y ∧ (∃ i < n, y i ≠ 0) ∧
      ∀ i < n, i ∉ S → ∑ j ∈ range n, (K i j + c * G i j) * y j = 0 := by
  classical
  have zero_form : ∀ (M : ℕ → ℕ → ℝ) (x : ℕ → ℝ), (∀ i < n, x i = 0) → form n M x x = 0 := by
    intro M x hx
    rw [form_congr (v' := fun _ => 0) (u' := fun _ => 0) hx hx]; simp [form]
  have hzne : ∃ i < n, z i ≠ 0 := by
    by_contra hcon
    push Not at hcon
    rw [zero_form G z hcon] at hneg
    exact lt_irrefl _ hneg
  -- the unit sphere of the supported displacements
  let A : Set (Fin n → ℝ) := Metric.sphere 0 1 ∩ {x | ∀ i : Fin n, (i : ℕ) ∈ S → x i = 0}
  have hAc : IsCompact A := by
    refine (isCompact_sphere 0 1).inter_right ?_
    have : {x : Fin n → ℝ | ∀ i : Fin n, (i : ℕ) ∈ S → x i = 0} = ⋂ i : Fin n, {x | (i : ℕ) ∈ S → x i = 0} := by ext x; simp
    rw [this]
    refine isClosed_iInter fun i => ?_
    by_cases h : (i : ℕ) ∈ S
    · simp only [h, forall_true_left]
      exact isClosed_eq (continuous_apply i) continuous_const
    · simp [h]
  have hsup : ∀ x ∈ A, Supported n S (ext x) ∧ ∃ i < n, ext x i ≠ 0 := by
    rintro x ⟨hx1, hx2⟩
    refine ⟨fun i hi hiS => by unfold ext; rw [dif_pos hi]; exact hx2 ⟨i, hi⟩ hiS, ?_⟩
    by_contra hcon
    push Not at hcon
    have : x = 0 := by
      funext i
      have := hcon i i.2
      unfold ext at this
      rwa [dif_pos i.2] at this
    rw [this] at hx1
    simp at hx1
  have hpos : ∀ x ∈ A, 0 < form n K (ext x) (ext x) := fun x hx => hpd _ (hsup x hx).1 (hsup x hx).2
  -- every supported displacement is a multiple of one there
  have hscale : ∀ x : ℕ → ℝ, Supported n S x → (∃ i < n, x i ≠ 0) → ∃ u ∈ A, ∃ t : ℝ, t ≠ 0 ∧ ∀ i < n, x i = t * ext u i := by
    intro x hx hne
    let x' : Fin n → ℝ := fun i => x i
    have hx' : x' ≠ 0 := by
      rintro h
      obtain ⟨i, hi, h'⟩ := hne
      exact h' (congrFun h ⟨i, hi⟩)
    have hnorm : ‖x'‖ ≠ 0 := norm_ne_zero_iff.2 hx'
    refine ⟨‖x'‖⁻¹ • x', ⟨?_, fun i hi => ?_⟩, ‖x'‖, hnorm, fun i hi => ?_⟩
    · rw [mem_sphere_zero_iff_norm, norm_smul, norm_inv, norm_norm, inv_mul_cancel₀ hnorm]
    · change ‖x'‖⁻¹ * x i = 0
      rw [hx i i.2 hi, mul_zero]
    · rw [ext_smul, ext_restrict x hi]
      field_simp
  obtain ⟨uz, huz, tz, htz, hzt⟩ := hscale z hz hzne
  have hcont : ContinuousOn (fun x : Fin n → ℝ => -form n G (ext x) (ext x) / form n K (ext x) (ext x)) A :=
    ContinuousOn.div (form_ext_cont n G).neg.continuousOn (form_ext_cont n K).continuousOn fun x hx => (hpos x hx).ne'
  obtain ⟨y, hyA, hmax⟩ := hAc.exists_isMaxOn ⟨uz, huz⟩ hcont
  set M := -form n G (ext y) (ext y) / form n K (ext y) (ext y) with hM
  have hle : ∀ x, Supported n S x → -form n G x x ≤ M * form n K x x := by
    intro x hx
    by_cases hne : ∃ i < n, x i ≠ 0
    · obtain ⟨u, hu, t, ht, hxt⟩ := hscale x hx hne
      have h1 := hmax hu
      simp only [Set.mem_ofPred_eq] at h1
      rw [div_le_iff₀ (hpos u hu)] at h1
      rw [form_congr hxt hxt, form_congr (K := K) hxt hxt, form_smul, form_smul]
      nlinarith [mul_self_pos.2 ht]
    · push Not at hne
      rw [zero_form _ _ hne, zero_form _ _ hne]; simp
  have hMpos : 0 < M := by
    have h1 := hle z hz
    have h2 := hpd z hz hzne
    by_contra hcon
    push Not at hcon
    nlinarith
  refine ⟨M⁻¹, inv_pos.2 hMpos, ?_, ?_, ext y, (hsup y hyA).1, (hsup y hyA).2, ?_⟩
  · rw [inv_mul_le_iff₀ hMpos]; exact hle z hz
  · intro x hx
    have := hle x hx
    have h2 : M⁻¹ * -form n G x x ≤ form n K x x := by rw [inv_mul_le_iff₀ hMpos]; exact this
    linarith
  · intro i hi hiS
    refine psd_kernel (H := fun i j => K i j + M⁻¹ * G i j) (S := S) (fun i hi j hj => by rw [hK i hi j hj, hG i hi j hj]) ?_ (hsup y hyA).1 ?_ hi hiS
    · intro x hx
      have : form n (fun i j => K i j + M⁻¹ * G i j) x x = form n K x x + M⁻¹ * form n G x x := by
        have := form_add_mat n K G 1 M⁻¹ x x
        simpa using this
      rw [this]
      have h2 : M⁻¹ * -form n G x x ≤ form n K x x := by rw [inv_mul_le_iff₀ hMpos]; exact hle x hx
      linarith
    · have : form n (fun i j => K i j + M⁻¹ * G i j) (ext y) (ext y) = form n K (ext y) (ext y) + M⁻¹ * form n G (ext y) (ext y) := by
        have := form_add_mat n K G 1 M⁻¹ (ext y) (ext y)
        simpa using this
      rw [this]
      have hk := hpos y hyA
      have hg : form n G (ext y) (ext y) = -(M * form n K (ext y) (ext y)) := by
        rw [hM]; field_simp
      rw [hg]; field_simp; ring

end Meshless
