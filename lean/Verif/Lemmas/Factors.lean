import Verif.Spec.Factors
import Verif.Props.Modal

/-! Counting buckling factors of symmetric matrices. -/

set_option autoImplicit false

namespace Meshless
open Spec Finset

/-- symmetric matrices, the first positive definite on the supported displacements -/
structure Pair (K G : Mat) (S : Set ℕ) : Prop where
  symK : ∀ i < K.dim, ∀ j < K.dim, K.get i j = K.get j i
  symG : ∀ i < K.dim, ∀ j < K.dim, G.get i j = G.get j i
  stable : Stable K S

theorem Pair.modes {K G : Mat} {S : Set ℕ} (h : Pair K G S) : ∃ (N : ℕ) (c : Fin N → ℝ) (x : Fin N → ℕ → ℝ), ModeList K G S N c x := by
  obtain ⟨_, p, μ, h⟩ := modal_exists h.symK h.symG S h.stable
  exact modeList_of h

section
variable {K G : Mat} {S : Set ℕ} (h : Pair K G S) {N : ℕ} {c : Fin N → ℝ} {x : Fin N → ℕ → ℝ} (hl : ModeList K G S N c x)
include h hl

theorem Pair.ne (a : Fin N) : c a ≠ 0 := by
  intro h0
  have h1 := mode_form (hl.mode a) (hl.mode a).2.1
  rw [h0, zero_mul, add_zero] at h1
  exact absurd h1 (h.stable _ (hl.mode a).2.1 (hl.mode a).1).ne'

theorem Pair.work (a : Fin N) {v : ℕ → ℝ} (hv : Supported K.dim S v) : form K.dim G.get (x a) v = -form K.dim K.get (x a) v / c a := by
  have h1 := mode_form (hl.mode a) hv
  rw [form_symm h.symK v, form_symm h.symG v] at h1
  rw [eq_div_iff (h.ne hl a)]
  linarith

theorem Pair.loaded (t : ℝ) {v : ℕ → ℝ} (hv : Supported K.dim S v) : ∃ r, Supported K.dim S r ∧ (∀ i < K.dim, v i = r i + ∑ a, form K.dim K.get (x a) v * x a i) ∧
    form K.dim (fun i j => K.get i j + t * G.get i j) v v = form K.dim K.get r r + ∑ a, form K.dim K.get (x a) v ^ 2 * (1 - t / c a) := by
  classical
  obtain ⟨r, hr1, hr2, hr3⟩ := hl.all v hv
  have hrx : ∀ a, form K.dim K.get (x a) r = 0 := by
    intro a
    have h1 := h.work hl a hr1
    rw [form_rows_zero (hl.mode a).2.1 hr2] at h1
    have := h.ne hl a
    field_simp at h1
    linarith
  refine ⟨r, hr1, hr3, ?_⟩
  rw [form_one_add]
  have h1 : form K.dim K.get v v = form K.dim K.get r r + ∑ a, form K.dim K.get (x a) v ^ 2 := by
    rw [form_congr (v' := v) (fun _ _ => rfl) hr3, form_add_right', form_expand_right]
    congr 1
    · rw [form_congr (u' := r) hr3 (fun _ _ => rfl), form_add_left', form_expand_left, Finset.sum_eq_zero fun a _ => by rw [hrx a, mul_zero], add_zero]
    · exact Finset.sum_congr rfl fun a _ => by rw [form_symm h.symK v, pow_two]
  have h2 : form K.dim G.get v v = ∑ a, form K.dim K.get (x a) v ^ 2 * (-1 / c a) := by
    rw [form_congr (v' := v) (fun _ _ => rfl) hr3, form_add_right', form_expand_right, form_rows_zero hv hr2, zero_add]
    refine Finset.sum_congr rfl fun a _ => ?_
    rw [form_symm h.symG v, h.work hl a hv]
    ring
  rw [h1, h2, Finset.mul_sum, add_assoc, ← Finset.sum_add_distrib]
  congr 1
  exact Finset.sum_congr rfl fun a _ => by ring

theorem Pair.coef (α : Fin N → ℝ) (b : Fin N) : form K.dim K.get (x b) (fun i => ∑ a, α a * x a i) = α b := by
  rw [form_expand_right, Finset.sum_eq_single b]
  · rw [hl.unit, mul_one]
  · intro a _ hab; rw [hl.orth b a (Ne.symm hab), mul_zero]
  · intro hn; exact absurd (mem_univ _) hn

omit h in
theorem comb_supported {ι : Type} [Fintype ι] {n : ℕ} {x : ι → ℕ → ℝ} (hx : ∀ a, Supported n S (x a)) (α : ι → ℝ) : Supported n S fun i => ∑ a, α a * x a i :=
  fun i hi hiS => Finset.sum_eq_zero fun a _ => by rw [hx a i hi hiS, mul_zero]

/-- negative energy on the span of the modes below `t` -/
theorem Pair.below {t : ℝ} (α : Fin N → ℝ) (hα : ∀ a, α a ≠ 0 → 0 < c a ∧ c a < t) (hne : ∃ a, α a ≠ 0) :
    form K.dim (fun i j => K.get i j + t * G.get i j) (fun i => ∑ a, α a * x a i) (fun i => ∑ a, α a * x a i) < 0 := by
  classical
  have hsup := comb_supported hl (fun a => (hl.mode a).2.1) α
  rw [form_one_add, form_expand_left, form_expand_left]
  simp only [h.work hl _ hsup, h.coef hl]
  rw [Finset.mul_sum, ← Finset.sum_add_distrib]
  obtain ⟨b, hb⟩ := hne
  have hle : ∀ a, α a * α a + t * (α a * (-α a / c a)) ≤ 0 := by
    intro a
    by_cases h0 : α a = 0
    · rw [h0]; simp
    · obtain ⟨h1, h2⟩ := hα a h0
      have : α a * α a + t * (α a * (-α a / c a)) = α a * α a * (c a - t) / c a := by field_simp; ring
      rw [this]
      exact div_nonpos_of_nonpos_of_nonneg (mul_nonpos_of_nonneg_of_nonpos (mul_self_nonneg _) (by linarith)) h1.le
  have hlt : α b * α b + t * (α b * (-α b / c b)) < 0 := by
    obtain ⟨h1, h2⟩ := hα b hb
    have : α b * α b + t * (α b * (-α b / c b)) = α b * α b * (c b - t) / c b := by field_simp; ring
    rw [this]
    exact div_neg_of_neg_of_pos (mul_neg_of_pos_of_neg (mul_self_pos.2 hb) (by linarith)) h1
  exact Finset.sum_neg' (fun a _ => hle a) ⟨b, mem_univ _, hlt⟩

open Classical in
/-- if the energy at load level `t` is not negative on the supported displacements that meet `q` linear conditions, there are at most `q` factors below `t` -/
theorem Pair.count_le {t : ℝ} {Q : Type} [Fintype Q] (ℓ : Q → ℕ → ℝ)
    (hpos : ∀ v, Supported K.dim S v → (∀ b, ∑ i ∈ range K.dim, ℓ b i * v i = 0) → (∃ i < K.dim, v i ≠ 0) →
      ((∀ i, v i = ∑ a, form K.dim K.get (x a) v * x a i) ∧ ∀ a, ¬(0 < c a ∧ c a < t) → form K.dim K.get (x a) v = 0) → 0 ≤ form K.dim (fun i j => K.get i j + t * G.get i j) v v) :
    (univ.filter fun a => 0 < c a ∧ c a < t).card ≤ Fintype.card Q := by
  set W := univ.filter fun a => 0 < c a ∧ c a < t with hW
  let ext : (W → ℝ) → Fin N → ℝ := fun α a => if ha : a ∈ W then α ⟨a, ha⟩ else 0
  let φ : (W → ℝ) →ₗ[ℝ] (Q → ℝ) :=
    { toFun := fun α b => ∑ i ∈ range K.dim, ℓ b i * ∑ a : W, α a * x a.1 i
      map_add' := fun α β => by funext i; simp [add_mul, mul_add, Finset.sum_add_distrib]
      map_smul' := fun s α => by
        funext i
        simp only [Pi.smul_apply, smul_eq_mul, RingHom.id_apply, Finset.mul_sum]
        exact Finset.sum_congr rfl fun j _ => Finset.sum_congr rfl fun a _ => by ring }
  have hinj : Function.Injective φ := by
    rw [injective_iff_map_eq_zero]
    intro α hα
    by_contra hcon
    have hsum : ∀ i, ∑ a, ext α a * x a i = ∑ a : W, α a * x a.1 i := by
      intro i
      rw [← Finset.sum_subset (Finset.subset_univ W), ← Finset.sum_coe_sort W]
      · exact Finset.sum_congr rfl fun a _ => by simp [ext]
      · intro a _ ha; simp [ext, ha]
    have hne : ∃ a, ext α a ≠ 0 := by
      by_contra hh
      push Not at hh
      refine hcon (funext fun a => ?_)
      have := hh a.1
      simpa [ext] using this
    have hneg := h.below hl (t := t) (ext α) (fun a ha => by
      have : a ∈ W := by by_contra hn; exact ha (by simp [ext, hn])
      exact (mem_filter.1 this).2) hne
    have hsup := comb_supported hl (fun a => (hl.mode a).2.1) (ext α)
    have hnz : ∃ i < K.dim, (∑ a, ext α a * x a i) ≠ 0 := by
      by_contra hh
      push Not at hh
      rw [form_zero_left hh] at hneg
      exact lt_irrefl _ hneg
    have := hpos _ hsup (fun b => by
      have := congrFun hα b
      simp only [hsum]
      exact this) hnz ⟨fun i => by simp only [h.coef hl], fun a ha => by
        rw [h.coef hl]
        have : a ∉ W := fun hm => ha (mem_filter.1 hm).2
        simp [ext, this]⟩
    linarith
  have := LinearMap.finrank_le_finrank_of_injective hinj
  simpa using this

theorem Pair.nonneg_of {t : ℝ} (ht : 0 < t) {v : ℕ → ℝ} (hv : Supported K.dim S v) (h0 : ∀ a, 0 < c a → c a < t → form K.dim K.get (x a) v = 0) :
    0 ≤ form K.dim (fun i j => K.get i j + t * G.get i j) v v := by
  obtain ⟨r, hr1, _, hr2⟩ := h.loaded hl t hv
  rw [hr2]
  refine add_nonneg ?_ (Finset.sum_nonneg fun a _ => ?_)
  · by_cases h0 : ∃ i < K.dim, r i ≠ 0
    · exact (h.stable r hr1 h0).le
    · push Not at h0; rw [form_zero_left h0]
  · by_cases ha : 0 < c a ∧ c a < t
    · rw [h0 a ha.1 ha.2]; simp
    · refine mul_nonneg (sq_nonneg _) ?_
      rw [sub_nonneg]
      rcases lt_or_gt_of_ne (h.ne hl a) with h | h
      · exact (div_nonpos_of_nonneg_of_nonpos ht.le h.le).trans zero_le_one
      · rw [div_le_one h]
        by_contra h'
        exact ha ⟨h, not_le.1 h'⟩

end

/-- form as a linear condition -/
theorem form_cond {n : ℕ} (A : ℕ → ℕ → ℝ) (x v : ℕ → ℝ) : form n A x v = ∑ i ∈ range n, (∑ j ∈ range n, x j * A j i) * v i := by
  unfold form
  rw [Finset.sum_comm]
  exact Finset.sum_congr rfl fun i _ => by rw [Finset.sum_mul]

/-- Comparison of two problems at the same load level: if displacements of the second that meet `q` linear conditions belong to the first and have no smaller energy in the
second, the second has at most `q` factors more below `t`. -/
theorem count_compare {K G K' G' : Mat} {S S' : Set ℕ} (h : Pair K G S) (h' : Pair K' G' S') (hd : K'.dim = K.dim) {t : ℝ} (ht : 0 < t) {k k' : ℕ} (hk : FactorsBelow K G S t k)
    (hk' : FactorsBelow K' G' S' t k') {Q : Type} [Fintype Q] (ℓ : Q → ℕ → ℝ)
    (hcmp : ∀ v, Supported K.dim S' v → (∀ b, ∑ i ∈ range K.dim, ℓ b i * v i = 0) → Supported K.dim S v ∧
      form K.dim (fun i j => K.get i j + t * G.get i j) v v ≤ form K.dim (fun i j => K'.get i j + t * G'.get i j) v v) : k' ≤ k + Fintype.card Q := by
  classical
  obtain ⟨N, c, x, hl, rfl⟩ := hk
  obtain ⟨N', c', x', hl', rfl⟩ := hk'
  have := h'.count_le hl' (t := t) (Q := {a : Fin N // 0 < c a ∧ c a < t} ⊕ Q)
    (fun b => b.elim (fun a i => ∑ j ∈ range K.dim, x a.1 j * K.get j i) ℓ) (fun v hv hb _ _ => by
      rw [hd] at hv hb ⊢
      obtain ⟨h1, h2⟩ := hcmp v hv fun b => hb (.inr b)
      refine le_trans (h.nonneg_of hl ht h1 fun a ha1 ha2 => ?_) h2
      rw [form_cond]
      exact hb (.inl ⟨a, ha1, ha2⟩))
  rw [Fintype.card_sum, Fintype.card_subtype] at this
  convert this using 2

end Meshless
