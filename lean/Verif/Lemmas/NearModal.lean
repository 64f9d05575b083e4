import Verif.Props.Modal

/-!
Matrices near those of a buckling analysis: factors, modes and the limit of stability. Used with the matrices computed in floating-point arithmetic.
-/

set_option autoImplicit false

namespace Meshless
open Spec Finset

/-- `F` and `G'` differ from `K` and `G` by at most `δ` in every entry -/
def NearMats (K G F G' : Mat) (δ : ℝ) : Prop := F.dim = K.dim ∧ G'.dim = K.dim ∧ (∀ i < K.dim, ∀ j < K.dim, |F.get i j - K.get i j| ≤ δ) ∧
  ∀ i < K.dim, ∀ j < K.dim, |G'.get i j - G.get i j| ≤ δ

/-- change of a quadratic form with its matrix -/
theorem form_near {n : ℕ} {A B : ℕ → ℕ → ℝ} {δ : ℝ} (h : ∀ i < n, ∀ j < n, |A i j - B i j| ≤ δ) (v : ℕ → ℝ) :
    |form n A v v - form n B v v| ≤ δ * (∑ i ∈ range n, |v i|) ^ 2 := by
  have e : form n A v v - form n B v v = ∑ i ∈ range n, ∑ j ∈ range n, v i * (A i j - B i j) * v j := by
    unfold form
    rw [← Finset.sum_sub_distrib]
    refine Finset.sum_congr rfl fun i _ => ?_
    rw [← Finset.sum_sub_distrib]
    exact Finset.sum_congr rfl fun j _ => by ring
  rw [e]
  calc |∑ i ∈ range n, ∑ j ∈ range n, v i * (A i j - B i j) * v j| ≤ ∑ i ∈ range n, ∑ j ∈ range n, |v i| * δ * |v j| := by
        refine (Finset.abs_sum_le_sum_abs _ _).trans (Finset.sum_le_sum fun i hi => (Finset.abs_sum_le_sum_abs _ _).trans (Finset.sum_le_sum fun j hj => ?_))
        rw [abs_mul, abs_mul]
        exact mul_le_mul_of_nonneg_right (mul_le_mul_of_nonneg_left (h i (mem_range.1 hi) j (mem_range.1 hj)) (abs_nonneg _)) (abs_nonneg _)
    _ = δ * ((∑ i ∈ range n, |v i|) * ∑ j ∈ range n, |v j|) := by
        rw [Finset.sum_mul_sum, Finset.mul_sum]
        refine Finset.sum_congr rfl fun i _ => ?_
        rw [Finset.mul_sum]
        exact Finset.sum_congr rfl fun j _ => by ring
    _ = _ := by rw [pow_two]

section
variable {K G : Mat} {S : Set ℕ} (hKs : ∀ i < K.dim, ∀ j < K.dim, K.get i j = K.get j i) (hGs : ∀ i < K.dim, ∀ j < K.dim, G.get i j = G.get j i) (hS : Stable K S)

include hKs hGs hS in
theorem near_factors {c C1 : ℝ} (L : ℝ) (hc : 0 ≤ c) (hC1 : 0 ≤ C1) : ∃ C u0 : ℝ, 0 < u0 ∧ ∀ u, 0 ≤ u → u ≤ 1 → u ≤ u0 → ∀ F G', NearMats K G F G' (C1 * u) →
    ∀ (l : ℂ) (x : ℕ → ℂ), ‖l‖ ≤ L → ModeUpTo F G' S l x (c * u) →
      ∃ (l' : ℝ) (y : ℕ → ℂ), ComplexMode K G S l' y ∧ ‖l - l'‖ ≤ C * u ∧ ∀ i < K.dim, ‖x i - y i‖ ≤ C * u * ∑ j ∈ range K.dim, ‖x j‖ := by
  obtain ⟨_, p, μ, hmod⟩ := modal_exists hKs hGs S hS
  obtain ⟨C2, ε0, hC2, hε0, hpert⟩ := hmod.perturb |L| (abs_nonneg L)
  set B := ∑ r ∈ range K.dim, ∑ j ∈ range K.dim, (|K.get r j| + C1 + |L| * (|G.get r j| + C1)) with hB
  have hB0 : 0 ≤ B := Finset.sum_nonneg fun _ _ => Finset.sum_nonneg fun _ _ => by positivity
  set P := c * B + (C1 + |L| * C1) with hP
  have hP0 : 0 ≤ P := by positivity
  refine ⟨C2 * P, ε0 / (P + 1), by positivity, fun u hu hu1 hR F G' hF l x hlL hx => ?_⟩
  obtain ⟨n1, n2, n3, n4⟩ := hF
  obtain ⟨x1, x2, x3⟩ := hx
  rw [n1] at x1 x2 x3
  have hu1' := hu1
  have hlL' : ‖l‖ ≤ |L| := hlL.trans (le_abs_self _)
  set s := ∑ j ∈ range K.dim, ‖x j‖ with hs
  have hs0 : 0 ≤ s := Finset.sum_nonneg fun _ _ => norm_nonneg _
  have hCu : C1 * u ≤ C1 := mul_le_of_le_one_right hC1 hu1'
  have hB' : ∑ r ∈ range K.dim, ∑ j ∈ range K.dim, (|F.get r j| + ‖l‖ * |G'.get r j|) ≤ B := by
    refine Finset.sum_le_sum fun r hr => Finset.sum_le_sum fun j hj => ?_
    have e1 := n3 r (mem_range.1 hr) j (mem_range.1 hj)
    have e2 := n4 r (mem_range.1 hr) j (mem_range.1 hj)
    have e3 : |F.get r j| ≤ |K.get r j| + C1 := by
      have := abs_sub_abs_le_abs_sub (F.get r j) (K.get r j); linarith
    have e4 : |G'.get r j| ≤ |G.get r j| + C1 := by
      have := abs_sub_abs_le_abs_sub (G'.get r j) (G.get r j); linarith
    exact add_le_add e3 (mul_le_mul hlL' e4 (abs_nonneg _) (abs_nonneg _))
  have hres : ∀ i < K.dim, i ∉ S → ‖∑ j ∈ range K.dim, ((K.get i j : ℂ) + l * (G.get i j : ℂ)) * x j‖ ≤ P * u * s := by
    intro i hi hiS
    have e : ∑ j ∈ range K.dim, ((K.get i j : ℂ) + l * (G.get i j : ℂ)) * x j = ∑ j ∈ range K.dim, ((F.get i j : ℂ) + l * (G'.get i j : ℂ)) * x j -
        ∑ j ∈ range K.dim, (((F.get i j - K.get i j : ℝ) : ℂ) + l * ((G'.get i j - G.get i j : ℝ) : ℂ)) * x j := by
      rw [← Finset.sum_sub_distrib]; exact Finset.sum_congr rfl fun j _ => by push_cast; ring
    have e1 : ‖∑ j ∈ range K.dim, (((F.get i j - K.get i j : ℝ) : ℂ) + l * ((G'.get i j - G.get i j : ℝ) : ℂ)) * x j‖ ≤ (C1 + |L| * C1) * u * s := by
      rw [hs, Finset.mul_sum]
      refine (norm_sum_le _ _).trans (Finset.sum_le_sum fun j hj => ?_)
      rw [norm_mul]
      refine mul_le_mul_of_nonneg_right ((norm_add_le _ _).trans ?_) (norm_nonneg _)
      rw [norm_mul, Complex.norm_real, Complex.norm_real, Real.norm_eq_abs, Real.norm_eq_abs]
      have e2 := n3 i hi j (mem_range.1 hj)
      have e3 := mul_le_mul hlL' (n4 i hi j (mem_range.1 hj)) (abs_nonneg _) (abs_nonneg _)
      linarith
    have e2 := x3 i hi hiS
    have e3 : c * u * (∑ r ∈ range K.dim, ∑ j ∈ range K.dim, (|F.get r j| + ‖l‖ * |G'.get r j|)) * s ≤ c * u * B * s :=
      mul_le_mul_of_nonneg_right (mul_le_mul_of_nonneg_left hB' (by positivity)) hs0
    rw [e]
    refine (norm_sub_le _ _).trans ?_
    rw [hP]
    linarith
  have hsmall : P * u ≤ ε0 := by
    have h1 := hR
    rw [le_div_iff₀ (by positivity)] at h1
    linarith
  obtain ⟨l', y, y1, y2, y3, y4, y5⟩ := hpert l x (P * u) hlL' x1 x2 (by positivity) hsmall hres
  exact ⟨l', y, ⟨y1, y2, y3⟩, by rw [mul_assoc]; exact y4, fun i hi => by rw [mul_assoc C2 P]; exact y5 i hi⟩


include hKs hGs hS in
theorem near_real {c C1 : ℝ} (L : ℝ) (hc : 0 ≤ c) (hC1 : 0 ≤ C1) : ∃ C u0 : ℝ, 0 < u0 ∧ ∀ u, 0 ≤ u → u ≤ 1 → u ≤ u0 → ∀ F G', NearMats K G F G' (C1 * u) →
    ∀ (l : ℝ) (x : ℕ → ℝ), |l| ≤ L → ModeUpTo F G' S l (fun i => (x i : ℂ)) (c * u) →
      ∃ (l' : ℝ) (y : ℕ → ℝ), BucklingMode K G S l' y ∧ |l - l'| ≤ C * u ∧ ∀ i < K.dim, |x i - y i| ≤ C * u * ∑ j ∈ range K.dim, |x j| := by
  obtain ⟨C, u0, hu0, h⟩ := near_factors hKs hGs hS L hc hC1
  refine ⟨C, min u0 (1 / (2 * (|C| * K.dim + 1))), lt_min hu0 (by positivity), fun u hu hu1 hR F G' hF l x hl hx => ?_⟩
  obtain ⟨l', y, ⟨_, y2, y3⟩, y4, y5⟩ := h u hu hu1 (hR.trans (min_le_left _ _)) F G' hF l (fun i => (x i : ℂ))
    (by rw [Complex.norm_real, Real.norm_eq_abs]; exact hl) hx
  obtain ⟨n1, _⟩ := hF
  simp only [Complex.norm_real, Real.norm_eq_abs] at y5
  have y6 : ∀ i < K.dim, |x i - (y i).re| ≤ C * u * ∑ j ∈ range K.dim, |x j| := by
    intro i hi
    refine le_trans ?_ (y5 i hi)
    have := Complex.abs_re_le_norm ((x i : ℂ) - y i)
    rwa [Complex.sub_re, Complex.ofReal_re] at this
  refine ⟨l', fun i => (y i).re, ⟨?_, fun i hi hiS => by beta_reduce; rw [y2 i hi hiS]; rfl, fun i hi hiS => ?_⟩, ?_, y6⟩
  · by_contra hcon
    push Not at hcon
    have hpos : 0 < ∑ j ∈ range K.dim, |x j| := by
      obtain ⟨i, hi, hne⟩ := hx.1
      rw [n1] at hi
      exact Finset.sum_pos' (fun _ _ => abs_nonneg _) ⟨i, mem_range.2 hi, abs_pos.2 (by simpa using hne)⟩
    have hsum : ∑ j ∈ range K.dim, |x j| ≤ K.dim * (|C| * u * ∑ j ∈ range K.dim, |x j|) := by
      calc ∑ j ∈ range K.dim, |x j| ≤ ∑ j ∈ range K.dim, |C| * u * ∑ j ∈ range K.dim, |x j| := by
            refine Finset.sum_le_sum fun i hi => ?_
            have h1 := y6 i (mem_range.1 hi)
            rw [hcon i (mem_range.1 hi), sub_zero] at h1
            exact h1.trans (mul_le_mul_of_nonneg_right (mul_le_mul_of_nonneg_right (le_abs_self _) hu) hpos.le)
        _ = _ := by rw [Finset.sum_const, card_range, nsmul_eq_mul]
    have h2 := hR.trans (min_le_right _ _)
    rw [le_div_iff₀ (by positivity)] at h2
    have h3 : (K.dim : ℝ) * (|C| * u) ≤ 1 / 2 := by nlinarith [hu]
    nlinarith
  · have := congrArg Complex.re (y3 i hi hiS)
    rw [Complex.re_sum, Complex.zero_re] at this
    rw [← this]
    refine Finset.sum_congr rfl fun j _ => ?_
    rw [← Complex.ofReal_mul, ← Complex.ofReal_add, Complex.re_ofReal_mul]
  · rw [← Complex.ofReal_sub, Complex.norm_real, Real.norm_eq_abs] at y4
    exact y4


include hS in
theorem near_found {C1 : ℝ} (L : ℝ) (hC1 : 0 ≤ C1) : ∃ C u0 : ℝ, 0 < u0 ∧ ∀ u, 0 ≤ u → u ≤ u0 → ∀ F G', NearMats K G F G' (C1 * u) →
    ∀ (l : ℂ) (x : ℕ → ℂ), ‖l‖ ≤ L → ComplexMode K G S l x → ModeUpTo F G' S l x (C * u) := by
  by_cases hfree : ∃ i < K.dim, i ∉ S
  swap
  · push Not at hfree
    refine ⟨0, 1, one_pos, fun u hu hR F G' hF l x hl hx => ?_⟩
    obtain ⟨⟨i, hi, hne⟩, h2, _⟩ := hx
    exact absurd (h2 i hi (hfree i hi)) hne
  set B := ∑ r ∈ range K.dim, ∑ j ∈ range K.dim, |K.get r j| with hB
  have hBpos : 0 < B := by
    obtain ⟨i, hi, hiS⟩ := hfree
    have h1 := hS (fun j => if j = i then 1 else 0) (fun j _ hj => by beta_reduce; rw [if_neg]; rintro rfl; exact hiS hj) ⟨i, hi, by simp⟩
    have h2 : form K.dim K.get (fun j => if j = i then 1 else 0) (fun j => if j = i then 1 else 0) = K.get i i := by
      unfold form
      rw [Finset.sum_eq_single i, Finset.sum_eq_single i]
      · simp
      · intro j _ hj; simp [hj]
      · intro hn; exact absurd (mem_range.2 hi) hn
      · intro j _ hj; simp [hj]
      · intro hn; exact absurd (mem_range.2 hi) hn
    rw [h2] at h1
    have h3 : |K.get i i| ≤ ∑ j ∈ range K.dim, |K.get i j| := Finset.single_le_sum (f := fun j => |K.get i j|) (fun _ _ => abs_nonneg _) (mem_range.2 hi)
    have h4 : ∑ j ∈ range K.dim, |K.get i j| ≤ B :=
      Finset.single_le_sum (f := fun r => ∑ j ∈ range K.dim, |K.get r j|) (fun _ _ => Finset.sum_nonneg fun _ _ => abs_nonneg _) (mem_range.2 hi)
    exact h1.trans_le ((le_abs_self _).trans (h3.trans h4))
  set D := C1 * (1 + |L|) with hD
  have hD0 : 0 ≤ D := by positivity
  refine ⟨2 * D / B, B / (2 * (C1 * (K.dim * K.dim) + 1)), by positivity, fun u hu hR F G' hF l x hlL hx => ?_⟩
  obtain ⟨n1, n2, n3, n4⟩ := hF
  obtain ⟨x1, x2, x3⟩ := hx
  unfold ModeUpTo
  rw [n1]
  refine ⟨x1, x2, fun i hi hiS => ?_⟩
  set s := ∑ j ∈ range K.dim, ‖x j‖ with hs
  have hs0 : 0 ≤ s := Finset.sum_nonneg fun _ _ => norm_nonneg _
  have hlL' : ‖l‖ ≤ |L| := hlL.trans (le_abs_self _)
  have e : ∑ j ∈ range K.dim, ((F.get i j : ℂ) + l * (G'.get i j : ℂ)) * x j =
      ∑ j ∈ range K.dim, (((F.get i j - K.get i j : ℝ) : ℂ) + l * ((G'.get i j - G.get i j : ℝ) : ℂ)) * x j := by
    rw [← sub_eq_zero, ← Finset.sum_sub_distrib, ← x3 i hi hiS]; exact Finset.sum_congr rfl fun j _ => by push_cast; ring
  have e1 : ‖∑ j ∈ range K.dim, (((F.get i j - K.get i j : ℝ) : ℂ) + l * ((G'.get i j - G.get i j : ℝ) : ℂ)) * x j‖ ≤ D * u * s := by
    rw [hs, Finset.mul_sum]
    refine (norm_sum_le _ _).trans (Finset.sum_le_sum fun j hj => ?_)
    rw [norm_mul]
    refine mul_le_mul_of_nonneg_right ((norm_add_le _ _).trans ?_) (norm_nonneg _)
    rw [norm_mul, Complex.norm_real, Complex.norm_real, Real.norm_eq_abs, Real.norm_eq_abs]
    have e2 := n3 i hi j (mem_range.1 hj)
    have e3 := mul_le_mul hlL' (n4 i hi j (mem_range.1 hj)) (abs_nonneg _) (abs_nonneg _)
    rw [hD]
    linarith
  have hsize : B / 2 ≤ ∑ r ∈ range K.dim, ∑ j ∈ range K.dim, (|F.get r j| + ‖l‖ * |G'.get r j|) := by
    have h1 : B ≤ ∑ r ∈ range K.dim, ∑ j ∈ range K.dim, (|F.get r j| + ‖l‖ * |G'.get r j| + C1 * u) := by
      refine Finset.sum_le_sum fun r hr => Finset.sum_le_sum fun j hj => ?_
      have h2 := n3 r (mem_range.1 hr) j (mem_range.1 hj)
      have h3 := abs_sub_abs_le_abs_sub (K.get r j) (F.get r j)
      rw [abs_sub_comm] at h3
      have : 0 ≤ ‖l‖ * |G'.get r j| := by positivity
      linarith
    simp only [Finset.sum_add_distrib] at h1 ⊢
    simp only [Finset.sum_const, card_range, nsmul_eq_mul] at h1
    have h4 := hR
    rw [le_div_iff₀ (by positivity)] at h4
    have h5 : (K.dim : ℝ) * (K.dim * (C1 * u)) ≤ B / 2 := by nlinarith
    linarith
  rw [e]
  refine e1.trans (mul_le_mul_of_nonneg_right ?_ hs0)
  calc D * u = 2 * D / B * u * (B / 2) := by field_simp
    _ ≤ _ := mul_le_mul_of_nonneg_left hsize (by positivity)


include hKs hGs hS in
theorem near_limit {C1 : ℝ} (L : ℝ) (hC1 : 0 ≤ C1) {c1 : ℝ} (hc1 : 0 < c1) {y : ℕ → ℝ} (hy : BucklingMode K G S c1 y)
    (hmin : ∀ c' x, 0 < c' → BucklingMode K G S c' x → c1 ≤ c') : ∃ C : ℝ, ∀ u, 0 ≤ u → ∀ F G', NearMats K G F G' (C1 * u) →
      (∀ t, 0 ≤ t → t < c1 - C * u → ∀ v, Supported F.dim S v → (∃ i < F.dim, v i ≠ 0) → 0 < form F.dim (fun i j => F.get i j + t * G'.get i j) v v) ∧
      ∀ t, c1 + C * u < t → t ≤ L → ∃ v, Supported F.dim S v ∧ form F.dim (fun i j => F.get i j + t * G'.get i j) v v < 0 := by
  classical
  obtain ⟨_, p, μ, hmod⟩ := modal_exists hKs hGs S hS
  obtain ⟨κ, hκ, hco⟩ := hmod.coercive
  have hk := hS y hy.2.1 hy.1
  set k := form K.dim K.get y y with hkdef
  set s1 := ∑ i ∈ range K.dim, |y i| with hs1
  have hfac : ∀ a, -(1 / c1) ≤ μ a := by
    intro a
    by_cases h0 : 0 ≤ μ a
    · have : 0 < 1 / c1 := by positivity
      linarith
    · push Not at h0
      have h1 : 0 < -1 / μ a := div_pos_of_neg_of_neg (by norm_num) h0
      have h2 := hmin (-1 / μ a) (p a) h1 ⟨hmod.nonzero a, hmod.sup a, fun i hi hiS => by
        have h3 := hmod.row a hi hiS
        have : ∑ j ∈ range K.dim, (K.get i j + -1 / μ a * G.get i j) * p a j = ∑ j ∈ range K.dim, K.get i j * p a j + -1 / μ a * ∑ j ∈ range K.dim, G.get i j * p a j := by
          rw [Finset.mul_sum, ← Finset.sum_add_distrib]; exact Finset.sum_congr rfl fun j _ => by ring
        rw [this, h3]
        field_simp [h0.ne]
        ring⟩
      have h4 : c1 * (-μ a) ≤ 1 := by
        rw [le_div_iff_of_neg h0] at h2; linarith
      rw [neg_le, le_div_iff₀ hc1]; linarith
  have hlow : ∀ t, 0 ≤ t → ∀ v, Supported K.dim S v → (1 - t / c1) * form K.dim K.get v v ≤ form K.dim K.get v v + t * form K.dim G.get v v := by
    intro t ht v hv
    have h1 := hmod.gsq hv
    have h2 := hmod.ksq hv
    have h3 : -(1 / c1) * form K.dim K.get v v ≤ form K.dim G.get v v := by
      rw [h1, h2, Finset.mul_sum]
      exact Finset.sum_le_sum fun a _ => mul_le_mul_of_nonneg_right (hfac a) (sq_nonneg _)
    have h4 := mul_le_mul_of_nonneg_left h3 ht
    have h5 : (1 - t / c1) * form K.dim K.get v v = form K.dim K.get v v + t * (-(1 / c1) * form K.dim K.get v v) := by ring
    linarith
  set C := c1 * (C1 + c1 * C1) / κ + c1 * (C1 + |L| * C1) * s1 ^ 2 / k with hC
  have hC0 : 0 ≤ c1 * (C1 + c1 * C1) / κ := by positivity
  have hC0' : 0 ≤ c1 * (C1 + |L| * C1) * s1 ^ 2 / k := by positivity
  refine ⟨C, fun u hu F G' hF => ?_⟩
  obtain ⟨n1, n2, n3, n4⟩ := hF
  rw [n1]
  -- change of the energy by rounding
  have hdiff : ∀ t B, 0 ≤ t → t ≤ B → ∀ v, |form K.dim (fun i j => F.get i j + t * G'.get i j) v v - (form K.dim K.get v v + t * form K.dim G.get v v)| ≤
      (C1 + B * C1) * u * (∑ i ∈ range K.dim, |v i|) ^ 2 := by
    intro t B ht htB v
    rw [← form_one_add]
    refine form_near (fun i hi j hj => ?_) v
    have e : F.get i j + t * G'.get i j - (K.get i j + t * G.get i j) = (F.get i j - K.get i j) + t * (G'.get i j - G.get i j) := by ring
    rw [e]
    refine (abs_add_le _ _).trans ?_
    rw [abs_mul, abs_of_nonneg ht]
    have e1 := n3 i hi j hj
    have e2 := mul_le_mul htB (n4 i hi j hj) (abs_nonneg _) (ht.trans htB)
    linarith
  refine ⟨fun t ht htc v hv hne => ?_, fun t htc htL => ⟨y, hy.2.1, ?_⟩⟩
  · have hCu : 0 ≤ C * u := mul_nonneg (by linarith) hu
    have h1 := (abs_le.1 (hdiff t c1 ht (by linarith) v)).1
    have h2 := hlow t ht v hv
    have h3 := hco v hv
    set s := ∑ i ∈ range K.dim, |v i| with hs
    have hs0 : 0 < s := by
      obtain ⟨i, hi, hne⟩ := hne
      exact Finset.sum_pos' (fun _ _ => abs_nonneg _) ⟨i, mem_range.2 hi, abs_pos.2 hne⟩
    have h4 : C * u / c1 < 1 - t / c1 := by
      rw [div_lt_iff₀ hc1, sub_mul, div_mul_cancel₀ _ hc1.ne']; linarith
    have h5 : (C1 + c1 * C1) * u ≤ C * u / c1 * κ := by
      have : (C1 + c1 * C1) * u = c1 * (C1 + c1 * C1) / κ * u / c1 * κ := by field_simp
      rw [this]
      refine mul_le_mul_of_nonneg_right (div_le_div_of_nonneg_right (mul_le_mul_of_nonneg_right ?_ hu) hc1.le) hκ.le
      rw [hC]; linarith
    have h6 : C * u / c1 * κ * s ^ 2 < (1 - t / c1) * form K.dim K.get v v := by
      have h7 : C * u / c1 * κ * s ^ 2 < (1 - t / c1) * (κ * s ^ 2) := by
        rw [mul_assoc]; exact mul_lt_mul_of_pos_right h4 (by positivity)
      have h8 : 0 ≤ 1 - t / c1 := (div_nonneg hCu hc1.le).trans h4.le
      exact h7.trans_le (mul_le_mul_of_nonneg_left h3 h8)
    have h9 : (C1 + c1 * C1) * u * s ^ 2 ≤ C * u / c1 * κ * s ^ 2 := mul_le_mul_of_nonneg_right h5 (by positivity)
    linarith
  · have hCu : 0 ≤ C * u := mul_nonneg (by linarith) hu
    have ht : 0 ≤ t := by linarith
    have h1 := (abs_le.1 (hdiff t |L| ht (htL.trans (le_abs_self _)) y)).2
    have h2 := mode_form hy hy.2.1
    rw [← hkdef] at h2 h1
    rw [← hs1] at h1
    have h3 : form K.dim G.get y y = -k / c1 := by rw [eq_div_iff hc1.ne']; linarith
    rw [h3] at h1
    have h4 : k + t * (-k / c1) < - (C * u * k / c1) := by
      have : k + t * (-k / c1) + C * u * k / c1 = (c1 + C * u - t) * k / c1 := by field_simp; ring
      have h5 : (c1 + C * u - t) * k / c1 < 0 := div_neg_of_neg_of_pos (mul_neg_of_neg_of_pos (by linarith) hk) hc1
      linarith
    have h5 : (C1 + |L| * C1) * u * s1 ^ 2 ≤ C * u * k / c1 := by
      have : (C1 + |L| * C1) * u * s1 ^ 2 = c1 * (C1 + |L| * C1) * s1 ^ 2 / k * u * k / c1 := by field_simp
      rw [this]
      refine div_le_div_of_nonneg_right (mul_le_mul_of_nonneg_right (mul_le_mul_of_nonneg_right ?_ hu) hk.le) hc1.le
      rw [hC]; linarith
    linarith


end
end Meshless
