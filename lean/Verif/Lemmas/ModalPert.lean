import Verif.Lemmas.Modal
import Mathlib.Analysis.Complex.Norm
import Mathlib.Algebra.Order.Chebyshev

/-! Modal expansions, and the effect of small residuals on the factors and modes of a symmetric pencil. -/

set_option autoImplicit false

namespace Meshless
open Spec Finset

theorem form_expand_right {n : ℕ} {T : Type} [Fintype T] (K : ℕ → ℕ → ℝ) (v : ℕ → ℝ) (α : T → ℝ) (p : T → ℕ → ℝ) :
    form n K v (fun i => ∑ a, α a * p a i) = ∑ a, α a * form n K v (p a) := by
  unfold form
  simp only [Finset.mul_sum]
  rw [Finset.sum_comm (s := univ) (t := range n)]
  refine Finset.sum_congr rfl fun i _ => ?_
  rw [Finset.sum_comm (s := univ) (t := range n)]
  exact Finset.sum_congr rfl fun j _ => Finset.sum_congr rfl fun a _ => by ring

theorem form_expand_left {n : ℕ} {T : Type} [Fintype T] (K : ℕ → ℕ → ℝ) (v : ℕ → ℝ) (α : T → ℝ) (p : T → ℕ → ℝ) :
    form n K (fun i => ∑ a, α a * p a i) v = ∑ a, α a * form n K (p a) v := by
  unfold form
  simp only [Finset.mul_sum, Finset.sum_mul]
  rw [Finset.sum_comm (s := univ) (t := range n)]
  refine Finset.sum_congr rfl fun i _ => ?_
  rw [Finset.sum_comm (s := univ) (t := range n)]
  exact Finset.sum_congr rfl fun j _ => Finset.sum_congr rfl fun a _ => by ring

namespace Modal
variable {n : ℕ} {K G : ℕ → ℕ → ℝ} {S : Set ℕ} {T : Type} [Fintype T] {p : T → ℕ → ℝ} {μ : T → ℝ} (h : Modal n K G S T p μ)
include h

theorem kform {x : ℕ → ℝ} (hx : Supported n S x) (a : T) : form n K x (p a) = form n K (p a) x := by
  classical
  rw [form_congr (u' := p a) (h.expand x hx) (fun _ _ => rfl), form_expand_left, Finset.sum_eq_single a]
  · rw [h.self, mul_one]
  · intro b _ hb; rw [h.orth b a hb, mul_zero]
  · intro ha; exact absurd (mem_univ _) ha

theorem gform {x : ℕ → ℝ} (hx : Supported n S x) (a : T) : form n G x (p a) = μ a * form n K (p a) x := by
  classical
  rw [form_congr (u' := p a) (h.expand x hx) (fun _ _ => rfl), form_expand_left, Finset.sum_eq_single a]
  · rw [h.geo, mul_comm]
  · intro b _ hb; rw [h.gorth b a hb, mul_zero]
  · intro ha; exact absurd (mem_univ _) ha

theorem gform' {x : ℕ → ℝ} (hx : Supported n S x) (a : T) : form n G (p a) x = μ a * form n K (p a) x := by
  classical
  rw [form_congr (v' := p a) (fun _ _ => rfl) (h.expand x hx), form_expand_right, Finset.sum_eq_single a]
  · rw [h.geo, mul_comm]
  · intro b _ hb; rw [h.gorth a b (Ne.symm hb), mul_zero]
  · intro ha; exact absurd (mem_univ _) ha

/-- each member of the basis is a mode: `G p = μ K p` at the free degrees of freedom -/
theorem row (a : T) {i : ℕ} (hi : i < n) (hS : i ∉ S) : ∑ j ∈ range n, G i j * p a j = μ a * ∑ j ∈ range n, K i j * p a j := by
  classical
  let e : ℕ → ℝ := fun j => if j = i then 1 else 0
  have he : Supported n S e := by
    intro j _ hj
    simp only [e]; rw [if_neg]; rintro rfl; exact hS hj
  have hf : ∀ A : ℕ → ℕ → ℝ, form n A e (p a) = ∑ j ∈ range n, A i j * p a j := by
    intro A
    unfold form
    rw [Finset.sum_eq_single i]
    · simp [e]
    · intro j _ hj; simp [e, hj]
    · intro hn; exact absurd (mem_range.2 hi) hn
  rw [← hf, ← hf, h.gform he, h.kform he]

theorem nonzero (a : T) : ∃ i < n, p a i ≠ 0 := by
  by_contra hcon
  push Not at hcon
  have := h.self a
  rw [form_congr (v' := fun _ => 0) (u' := fun _ => 0) hcon hcon] at this
  simp [form] at this

/-- the energy by modes -/
theorem ksq {x : ℕ → ℝ} (hx : Supported n S x) : form n K x x = ∑ a, form n K (p a) x ^ 2 := by
  rw [form_congr (u' := x) (h.expand x hx) (fun _ _ => rfl), form_expand_left]
  exact Finset.sum_congr rfl fun a _ => (pow_two _).symm

theorem gsq {x : ℕ → ℝ} (hx : Supported n S x) : form n G x x = ∑ a, μ a * form n K (p a) x ^ 2 := by
  rw [form_congr (u' := x) (h.expand x hx) (fun _ _ => rfl), form_expand_left]
  exact Finset.sum_congr rfl fun a _ => by rw [h.gform' hx]; ring

/-- the energy bounds the size of a displacement -/
theorem coercive : ∃ κ : ℝ, 0 < κ ∧ ∀ x, Supported n S x → κ * (∑ i ∈ range n, |x i|) ^ 2 ≤ form n K x x := by
  set Q : ℝ := ∑ a, ∑ i ∈ range n, |p a i| + 1 with hQ
  have hQ1 : 1 ≤ Q := by
    have : 0 ≤ ∑ a, ∑ i ∈ range n, |p a i| := Finset.sum_nonneg fun _ _ => Finset.sum_nonneg fun _ _ => abs_nonneg _
    linarith
  have hQa : ∀ a, ∑ i ∈ range n, |p a i| ≤ Q := by
    intro a
    have := Finset.single_le_sum (f := fun a => ∑ i ∈ range n, |p a i|) (fun _ _ => Finset.sum_nonneg fun _ _ => abs_nonneg _) (mem_univ a)
    linarith
  have hQ0 : 0 < Q := by linarith
  refine ⟨1 / (Q ^ 2 * (Fintype.card T + 1)), by positivity, fun x hx => ?_⟩
  have h1 : ∑ i ∈ range n, |x i| ≤ Q * ∑ a, |form n K (p a) x| := by
    calc ∑ i ∈ range n, |x i| ≤ ∑ i ∈ range n, ∑ a, |form n K (p a) x| * |p a i| := by
          refine Finset.sum_le_sum fun i hi => ?_
          rw [h.expand x hx i (mem_range.1 hi)]
          refine (Finset.abs_sum_le_sum_abs _ _).trans (Finset.sum_le_sum fun a _ => ?_)
          rw [abs_mul]
      _ = ∑ a, |form n K (p a) x| * ∑ i ∈ range n, |p a i| := by
          rw [Finset.sum_comm]; exact Finset.sum_congr rfl fun a _ => (Finset.mul_sum _ _ _).symm
      _ ≤ ∑ a, |form n K (p a) x| * Q := Finset.sum_le_sum fun a _ => mul_le_mul_of_nonneg_left (hQa a) (abs_nonneg _)
      _ = _ := by rw [← Finset.sum_mul, mul_comm]
  have h2 : (∑ a, |form n K (p a) x|) ^ 2 ≤ Fintype.card T * ∑ a, form n K (p a) x ^ 2 := by
    have := sq_sum_le_card_mul_sum_sq (s := (univ : Finset T)) (f := fun a => |form n K (p a) x|)
    simpa [sq_abs] using this
  have h3 : (∑ i ∈ range n, |x i|) ^ 2 ≤ (Q * ∑ a, |form n K (p a) x|) ^ 2 := pow_le_pow_left₀ (Finset.sum_nonneg fun _ _ => abs_nonneg _) h1 2
  have h4 : 0 ≤ ∑ a, form n K (p a) x ^ 2 := Finset.sum_nonneg fun _ _ => sq_nonneg _
  rw [h.ksq hx, div_mul_eq_mul_div, one_mul, div_le_iff₀ (by positivity)]
  rw [mul_pow] at h3
  have h5 : Q ^ 2 * (∑ a, |form n K (p a) x|) ^ 2 ≤ Q ^ 2 * (Fintype.card T * ∑ a, form n K (p a) x ^ 2) := mul_le_mul_of_nonneg_left h2 (by positivity)
  have h6 : 0 ≤ Q ^ 2 * ∑ a, form n K (p a) x ^ 2 := by positivity
  linarith

/-- complex coefficient of a complex displacement -/
noncomputable def coef (_ : Modal n K G S T p μ) (x : ℕ → ℂ) (a : T) : ℂ := ∑ i ∈ range n, (p a i : ℂ) * ∑ j ∈ range n, (K i j : ℂ) * x j

omit h in
theorem re_sum (A : ℕ → ℕ → ℝ) (v : ℕ → ℝ) (x : ℕ → ℂ) : (∑ i ∈ range n, (v i : ℂ) * ∑ j ∈ range n, (A i j : ℂ) * x j).re = form n A v fun i => (x i).re := by
  rw [form_eq_sum]; simp [Complex.re_sum]

omit h in
theorem im_sum (A : ℕ → ℕ → ℝ) (v : ℕ → ℝ) (x : ℕ → ℂ) : (∑ i ∈ range n, (v i : ℂ) * ∑ j ∈ range n, (A i j : ℂ) * x j).im = form n A v fun i => (x i).im := by
  rw [form_eq_sum]; simp [Complex.im_sum]

theorem cexpand {x : ℕ → ℂ} (hx : ∀ i < n, i ∈ S → x i = 0) {i : ℕ} (hi : i < n) : x i = ∑ a, h.coef x a * (p a i : ℂ) := by
  have hre := h.expand (fun i => (x i).re) (fun j hj hS => by simp [hx j hj hS]) i hi
  have him := h.expand (fun i => (x i).im) (fun j hj hS => by simp [hx j hj hS]) i hi
  apply Complex.ext
  · rw [hre, Complex.re_sum]
    refine Finset.sum_congr rfl fun a _ => ?_
    rw [Complex.re_mul_ofReal, coef, re_sum]
  · rw [him, Complex.im_sum]
    refine Finset.sum_congr rfl fun a _ => ?_
    rw [Complex.im_mul_ofReal, coef, im_sum]

theorem cgeo {x : ℕ → ℂ} (hx : ∀ i < n, i ∈ S → x i = 0) (a : T) :
    ∑ i ∈ range n, (p a i : ℂ) * ∑ j ∈ range n, (G i j : ℂ) * x j = (μ a : ℂ) * h.coef x a := by
  apply Complex.ext
  · rw [re_sum, Complex.re_ofReal_mul, coef, re_sum, h.gform' fun j hj hS => by simp [hx j hj hS]]
  · rw [im_sum, Complex.im_ofReal_mul, coef, im_sum, h.gform' fun j hj hS => by simp [hx j hj hS]]

/-- the part of a displacement in the modes of one factor is a mode -/
theorem part_row (q : T → Prop) [DecidablePred q] {c : ℝ} (hc : ∀ a, q a → 1 + c * μ a = 0) (α : T → ℂ) {i : ℕ} (hi : i < n) (hS : i ∉ S) :
    ∑ j ∈ range n, ((K i j : ℂ) + (c : ℂ) * (G i j : ℂ)) * ∑ a with q a, α a * (p a j : ℂ) = 0 := by
  simp only [Finset.mul_sum]
  rw [Finset.sum_comm]
  refine Finset.sum_eq_zero fun a ha => ?_
  have e := h.row a hi hS
  have hc := hc a (mem_filter.1 ha).2
  have e2 : ∑ j ∈ range n, (K i j + c * G i j) * p a j = 0 := by
    have : ∑ j ∈ range n, (K i j + c * G i j) * p a j = ∑ j ∈ range n, K i j * p a j + c * ∑ j ∈ range n, G i j * p a j := by
      rw [Finset.mul_sum, ← Finset.sum_add_distrib]; exact Finset.sum_congr rfl fun j _ => by ring
    rw [this, e]
    linear_combination (∑ j ∈ range n, K i j * p a j) * hc
  have : ∑ j ∈ range n, ((K i j : ℂ) + (c : ℂ) * (G i j : ℂ)) * (α a * (p a j : ℂ)) = α a * ((∑ j ∈ range n, (K i j + c * G i j) * p a j : ℝ) : ℂ) := by
    push_cast
    rw [Finset.mul_sum]; exact Finset.sum_congr rfl fun j _ => by ring
  rw [this, e2]; simp

theorem coef_part (q : T → Prop) [DecidablePred q] (α : T → ℂ) {b : T} (hb : q b) :
    h.coef (fun j => ∑ a with q a, α a * (p a j : ℂ)) b = α b := by
  classical
  have hsup : ∀ i < n, i ∈ S → (fun j => ∑ a with q a, α a * (p a j : ℂ)) i = 0 := by
    intro i hi hS
    exact Finset.sum_eq_zero fun a _ => by rw [h.sup a i hi hS]; simp
  unfold coef
  have : ∀ a, ∑ i ∈ range n, (p b i : ℂ) * ∑ j ∈ range n, (K i j : ℂ) * (α a * (p a j : ℂ)) = α a * ((form n K (p b) (p a) : ℝ) : ℂ) := by
    intro a
    rw [form_eq_sum]
    push_cast
    rw [Finset.mul_sum]
    refine Finset.sum_congr rfl fun i _ => ?_
    rw [show ∑ j ∈ range n, (K i j : ℂ) * (α a * (p a j : ℂ)) = α a * ∑ j ∈ range n, (K i j : ℂ) * (p a j : ℂ) by
      rw [Finset.mul_sum]; exact Finset.sum_congr rfl fun j _ => by ring]
    ring
  have e : ∑ i ∈ range n, (p b i : ℂ) * ∑ j ∈ range n, (K i j : ℂ) * ∑ a with q a, α a * (p a j : ℂ) =
      ∑ a with q a, ∑ i ∈ range n, (p b i : ℂ) * ∑ j ∈ range n, (K i j : ℂ) * (α a * (p a j : ℂ)) := by
    rw [Finset.sum_comm]
    refine Finset.sum_congr rfl fun i _ => ?_
    rw [← Finset.mul_sum]
    congr 1
    rw [Finset.sum_comm]
    exact Finset.sum_congr rfl fun j _ => by rw [Finset.mul_sum]
  rw [e]
  simp only [this]
  rw [Finset.sum_eq_single b]
  · rw [h.self]; simp
  · intro a _ hab; rw [h.orth b a (Ne.symm hab)]; simp
  · intro hn; exact absurd (mem_filter.2 ⟨mem_univ _, hb⟩) hn

/-- Small residuals: a factor and a displacement that satisfy the equations of the pencil up to a residual `ε` are within a constant times `ε` of an
exact factor and of an exact mode of that factor. -/
theorem perturb (L : ℝ) (hL : 0 ≤ L) : ∃ C ε0 : ℝ, 0 ≤ C ∧ 0 < ε0 ∧ ∀ (c : ℂ) (x : ℕ → ℂ) (ε : ℝ), ‖c‖ ≤ L → (∃ i < n, x i ≠ 0) → (∀ i < n, i ∈ S → x i = 0) →
    0 ≤ ε → ε ≤ ε0 → (∀ i < n, i ∉ S → ‖∑ j ∈ range n, ((K i j : ℂ) + c * (G i j : ℂ)) * x j‖ ≤ ε * ∑ j ∈ range n, ‖x j‖) →
    ∃ (c' : ℝ) (y : ℕ → ℂ), (∃ i < n, y i ≠ 0) ∧ (∀ i < n, i ∈ S → y i = 0) ∧
      (∀ i < n, i ∉ S → ∑ j ∈ range n, ((K i j : ℂ) + (c' : ℂ) * (G i j : ℂ)) * y j = 0) ∧ ‖c - c'‖ ≤ C * ε ∧ ∀ i < n, ‖x i - y i‖ ≤ C * ε * ∑ j ∈ range n, ‖x j‖ := by
  classical
  -- bounds on the basis and its factors
  set Q : ℝ := ∑ a, ∑ i ∈ range n, |p a i| + 1 with hQ
  have hQ1 : 1 ≤ Q := by
    have : 0 ≤ ∑ a, ∑ i ∈ range n, |p a i| := Finset.sum_nonneg fun _ _ => Finset.sum_nonneg fun _ _ => abs_nonneg _
    linarith
  have hQa : ∀ a, ∑ i ∈ range n, |p a i| ≤ Q := by
    intro a
    have := Finset.single_le_sum (f := fun a => ∑ i ∈ range n, |p a i|) (fun _ _ => Finset.sum_nonneg fun _ _ => abs_nonneg _) (mem_univ a)
    linarith
  have hQi : ∀ i < n, ∑ a, |p a i| ≤ Q := by
    intro i hi
    have : ∑ a, |p a i| ≤ ∑ a, ∑ i ∈ range n, |p a i| := Finset.sum_le_sum fun a _ =>
      Finset.single_le_sum (f := fun i => |p a i|) (fun _ _ => abs_nonneg _) (mem_range.2 hi)
    linarith
  set M : ℝ := ∑ a, |μ a| with hM
  have hM0 : 0 ≤ M := Finset.sum_nonneg fun _ _ => abs_nonneg _
  have hMa : ∀ a, |μ a| ≤ M := fun a => Finset.single_le_sum (f := fun a => |μ a|) (fun _ _ => abs_nonneg _) (mem_univ a)
  obtain ⟨γ, hγ0, hγ⟩ : ∃ γ : ℝ, 0 < γ ∧ ∀ a b, μ b ≠ 0 → μ a ≠ μ b → γ ≤ |μ b - μ a| / |μ b| := by
    have : ∀ᶠ γ : ℝ in nhdsWithin 0 (Set.Ioi 0), ∀ a b, μ b ≠ 0 → μ a ≠ μ b → γ ≤ |μ b - μ a| / |μ b| := by
      refine Filter.eventually_all.2 fun a => Filter.eventually_all.2 fun b => ?_
      by_cases h1 : μ b ≠ 0 ∧ μ a ≠ μ b
      · have hp : (0:ℝ) < |μ b - μ a| / |μ b| := div_pos (abs_pos.2 (sub_ne_zero.2 (Ne.symm h1.2))) (abs_pos.2 h1.1)
        exact ((eventually_le_nhds hp).filter_mono nhdsWithin_le_nhds).mono fun _ hx _ _ => hx
      · exact Filter.Eventually.of_forall fun _ h2 h3 => absurd ⟨h2, h3⟩ h1
    obtain ⟨γ, h1, h2⟩ := (this.and self_mem_nhdsWithin).exists
    exact ⟨γ, h2, h1⟩
  have hQ0 : 0 < Q := by linarith
  refine ⟨2 * L * Q ^ 2 + 2 * Q ^ 2 / γ, min (1 / (2 * Q ^ 2)) (γ / (4 * (L + 1) * Q ^ 2 * (M + 1))), by positivity, by positivity, ?_⟩
  intro c x ε hc hx0 hxS hε hε0 hres
  have hε1 : Q ^ 2 * ε ≤ 1 / 2 := by
    have := hε0.trans (min_le_left _ _)
    rw [le_div_iff₀ (by positivity)] at this
    linarith
  have hε2 : 2 * L * Q ^ 2 * ε * M ≤ γ / 2 := by
    have := hε0.trans (min_le_right _ _)
    rw [le_div_iff₀ (by positivity)] at this
    have h1 : 2 * L * Q ^ 2 * ε * M ≤ 2 * (L + 1) * Q ^ 2 * ε * (M + 1) := by
      have : L * M ≤ (L + 1) * (M + 1) := by nlinarith
      have h2 : 0 ≤ Q ^ 2 * ε := by positivity
      nlinarith
    nlinarith
  set s := ∑ j ∈ range n, ‖x j‖ with hs
  have hs0 : 0 < s := by
    obtain ⟨i, hi, hne⟩ := hx0
    exact Finset.sum_pos' (fun _ _ => norm_nonneg _) ⟨i, mem_range.2 hi, norm_pos_iff.2 hne⟩
  set A := h.coef x with hA
  -- projection of the residual on the modes
  have hproj : ∀ a, ‖A a * (1 + c * μ a)‖ ≤ Q * ε * s := by
    intro a
    have e : A a * (1 + c * μ a) = ∑ i ∈ range n, (p a i : ℂ) * ∑ j ∈ range n, ((K i j : ℂ) + c * (G i j : ℂ)) * x j := by
      have e1 := h.cgeo hxS a
      have : ∑ i ∈ range n, (p a i : ℂ) * ∑ j ∈ range n, ((K i j : ℂ) + c * (G i j : ℂ)) * x j =
          ∑ i ∈ range n, (p a i : ℂ) * ∑ j ∈ range n, (K i j : ℂ) * x j + c * ∑ i ∈ range n, (p a i : ℂ) * ∑ j ∈ range n, (G i j : ℂ) * x j := by
        rw [Finset.mul_sum, ← Finset.sum_add_distrib]
        refine Finset.sum_congr rfl fun i _ => ?_
        have : ∑ j ∈ range n, ((K i j : ℂ) + c * (G i j : ℂ)) * x j = ∑ j ∈ range n, (K i j : ℂ) * x j + c * ∑ j ∈ range n, (G i j : ℂ) * x j := by
          rw [Finset.mul_sum, ← Finset.sum_add_distrib]; exact Finset.sum_congr rfl fun j _ => by ring
        rw [this]; ring
      rw [this, e1]
      change A a * (1 + c * μ a) = A a + c * (μ a * A a)
      ring
    rw [e]
    calc ‖∑ i ∈ range n, (p a i : ℂ) * ∑ j ∈ range n, ((K i j : ℂ) + c * (G i j : ℂ)) * x j‖ ≤ ∑ i ∈ range n, |p a i| * (ε * s) := by
          refine (norm_sum_le _ _).trans (Finset.sum_le_sum fun i hi => ?_)
          rw [norm_mul, Complex.norm_real, Real.norm_eq_abs]
          by_cases hS : i ∈ S
          · rw [h.sup a i (mem_range.1 hi) hS]; simp
          · exact mul_le_mul_of_nonneg_left (hres i (mem_range.1 hi) hS) (abs_nonneg _)
      _ = (∑ i ∈ range n, |p a i|) * (ε * s) := by rw [Finset.sum_mul]
      _ ≤ Q * (ε * s) := mul_le_mul_of_nonneg_right (hQa a) (by positivity)
      _ = _ := by ring
  -- the largest coefficient
  have hne : Nonempty T := by
    by_contra hemp
    rw [not_nonempty_iff] at hemp
    obtain ⟨i, hi, hne⟩ := hx0
    refine hne ?_
    rw [h.cexpand hxS hi]; simp
  obtain ⟨b, hb⟩ := Finite.exists_max fun a => ‖A a‖
  have hsA : s ≤ Q * ‖A b‖ := by
    calc s ≤ ∑ i ∈ range n, ∑ a, ‖A b‖ * |p a i| := by
          refine Finset.sum_le_sum fun i hi => ?_
          rw [h.cexpand hxS (mem_range.1 hi)]
          refine (norm_sum_le _ _).trans (Finset.sum_le_sum fun a _ => ?_)
          rw [norm_mul, Complex.norm_real, Real.norm_eq_abs]
          exact mul_le_mul_of_nonneg_right (hb a) (abs_nonneg _)
      _ = ‖A b‖ * ∑ a, ∑ i ∈ range n, |p a i| := by
          rw [Finset.sum_comm, Finset.mul_sum]; exact Finset.sum_congr rfl fun a _ => by rw [Finset.mul_sum]
      _ ≤ ‖A b‖ * Q := mul_le_mul_of_nonneg_left (by linarith) (norm_nonneg _)
      _ = _ := mul_comm _ _
  have hAb : 0 < ‖A b‖ := by
    by_contra hcon
    have : ‖A b‖ = 0 := le_antisymm (not_lt.1 hcon) (norm_nonneg _)
    rw [this] at hsA; linarith
  have h1b : ‖1 + c * μ b‖ ≤ Q ^ 2 * ε := by
    have := hproj b
    rw [norm_mul] at this
    have h2 : Q * ε * s ≤ Q * ε * (Q * ‖A b‖) := mul_le_mul_of_nonneg_left hsA (by positivity)
    have h3 : ‖A b‖ * ‖1 + c * μ b‖ ≤ ‖A b‖ * (Q ^ 2 * ε) := by nlinarith
    exact le_of_mul_le_mul_left h3 hAb
  have hcμ : 1 / 2 ≤ L * |μ b| := by
    have h2 : ‖(1:ℂ)‖ ≤ ‖1 + c * μ b‖ + ‖c * μ b‖ := by
      have := norm_sub_le (1 + c * (μ b : ℂ)) (c * μ b)
      rwa [add_sub_cancel_right] at this
    rw [norm_one, norm_mul, Complex.norm_real, Real.norm_eq_abs] at h2
    have : ‖c‖ * |μ b| ≤ L * |μ b| := mul_le_mul_of_nonneg_right hc (abs_nonneg _)
    linarith
  have hμb : μ b ≠ 0 := by rintro h0; rw [h0] at hcμ; simp at hcμ; linarith
  have hμb' := abs_pos.2 hμb
  have hcc : ‖c - ((-1 / μ b : ℝ) : ℂ)‖ ≤ 2 * L * Q ^ 2 * ε := by
    have hμc : (μ b : ℂ) ≠ 0 := Complex.ofReal_ne_zero.2 hμb
    have e : c - ((-1 / μ b : ℝ) : ℂ) = (1 + c * μ b) / μ b := by push_cast; field_simp; ring
    rw [e, norm_div, Complex.norm_real, Real.norm_eq_abs, div_le_iff₀ hμb']
    calc ‖1 + c * μ b‖ ≤ Q ^ 2 * ε * 1 := by rw [mul_one]; exact h1b
      _ ≤ Q ^ 2 * ε * (2 * (L * |μ b|)) := mul_le_mul_of_nonneg_left (by linarith) (by positivity)
      _ = _ := by ring
  have hfar : ∀ a, μ a ≠ μ b → ‖A a‖ ≤ 2 * Q * ε * s / γ := by
    intro a hab
    have hg := hγ a b hμb hab
    have h2 : γ / 2 ≤ ‖1 + c * μ a‖ := by
      have e : (1 : ℂ) + c * μ a = ((1 + (-1 / μ b) * μ a : ℝ) : ℂ) + (c - ((-1 / μ b : ℝ) : ℂ)) * μ a := by push_cast; ring
      have e2 : |1 + (-1 / μ b) * μ a| = |μ b - μ a| / |μ b| := by rw [← abs_div]; congr 1; field_simp; ring
      have h3 := norm_sub_norm_le (((1 + (-1 / μ b) * μ a : ℝ) : ℂ)) (-((c - ((-1 / μ b : ℝ) : ℂ)) * μ a))
      rw [sub_neg_eq_add, ← e, norm_neg, norm_mul, Complex.norm_real, Complex.norm_real, Real.norm_eq_abs, Real.norm_eq_abs, e2] at h3
      have h4 : ‖c - ((-1 / μ b : ℝ) : ℂ)‖ * |μ a| ≤ 2 * L * Q ^ 2 * ε * M := mul_le_mul hcc (hMa a) (abs_nonneg _) (by positivity)
      linarith
    have h5 := hproj a
    rw [norm_mul] at h5
    have h6 : ‖A a‖ * (γ / 2) ≤ Q * ε * s := (mul_le_mul_of_nonneg_left h2 (norm_nonneg _)).trans h5
    rw [le_div_iff₀ hγ0]; linarith
  refine ⟨-1 / μ b, fun j => ∑ a with μ a = μ b, A a * (p a j : ℂ), ?_, ?_, ?_, ?_, ?_⟩
  · by_contra hcon
    push Not at hcon
    have e := h.coef_part (fun a => μ a = μ b) A (b := b) rfl
    have e0 : h.coef (fun j => ∑ a with μ a = μ b, A a * (p a j : ℂ)) b = 0 := by
      unfold coef
      refine Finset.sum_eq_zero fun i _ => ?_
      rw [Finset.sum_eq_zero fun j hj => by beta_reduce; rw [hcon j (mem_range.1 hj), mul_zero], mul_zero]
    rw [e0] at e
    rw [← e] at hAb; simp at hAb
  · intro i hi hS
    exact Finset.sum_eq_zero fun a _ => by rw [h.sup a i hi hS]; simp
  · intro i hi hS
    exact h.part_row (fun a => μ a = μ b) (c := -1 / μ b) (fun a ha => by rw [ha]; field_simp; ring) A hi hS
  · refine hcc.trans ?_
    have : 0 ≤ 2 * Q ^ 2 / γ * ε := by positivity
    nlinarith
  · intro i hi
    have e : x i - ∑ a with μ a = μ b, A a * (p a i : ℂ) = ∑ a with ¬ μ a = μ b, A a * (p a i : ℂ) := by
      rw [h.cexpand hxS hi, sub_eq_iff_eq_add, add_comm]
      exact (Finset.sum_filter_add_sum_filter_not _ _ _).symm
    rw [e]
    calc ‖∑ a with ¬ μ a = μ b, A a * (p a i : ℂ)‖ ≤ ∑ a with ¬ μ a = μ b, 2 * Q * ε * s / γ * |p a i| := by
          refine (norm_sum_le _ _).trans (Finset.sum_le_sum fun a ha => ?_)
          rw [norm_mul, Complex.norm_real, Real.norm_eq_abs]
          exact mul_le_mul_of_nonneg_right (hfar a (mem_filter.1 ha).2) (abs_nonneg _)
      _ ≤ ∑ a, 2 * Q * ε * s / γ * |p a i| := Finset.sum_le_sum_of_subset_of_nonneg (Finset.filter_subset _ _) fun _ _ _ => by positivity
      _ = 2 * Q * ε * s / γ * ∑ a, |p a i| := (Finset.mul_sum _ _ _).symm
      _ ≤ 2 * Q * ε * s / γ * Q := mul_le_mul_of_nonneg_left (hQi i hi) (by positivity)
      _ = 2 * Q ^ 2 / γ * ε * s := by ring
      _ ≤ _ := by
          have : 0 ≤ 2 * L * Q ^ 2 * ε * s := by positivity
          nlinarith

end Modal
end Meshless
