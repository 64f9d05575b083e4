import Verif.Lemmas.StiffErr
import Verif.Lemmas.ModalPert

/-! Factors of a pencil from matrices with bounded errors (C161). -/

set_option autoImplicit false

namespace Meshless
open Spec Finset

theorem len_nonneg (n : ℕ) (v : ℕ → ℝ) : 0 ≤ len n v := Real.sqrt_nonneg _

theorem sqLen_nonneg (n : ℕ) (v : ℕ → ℝ) : 0 ≤ sqLen n v := sum_nonneg fun _ _ => sq_nonneg _

theorem len_mul_self (n : ℕ) (v : ℕ → ℝ) : len n v * len n v = sqLen n v := Real.mul_self_sqrt (sqLen_nonneg n v)

theorem len_add (n : ℕ) (v u : ℕ → ℝ) : len n (fun i => v i + u i) ≤ len n v + len n u := by
  refine Real.sqrt_le_iff.2 ⟨add_nonneg (len_nonneg n v) (len_nonneg n u), ?_⟩
  have h : ∑ i ∈ range n, v i * u i ≤ len n v * len n u := Real.sum_mul_le_sqrt_mul_sqrt _ _ _
  have e : sqLen n (fun i => v i + u i) = sqLen n v + 2 * (∑ i ∈ range n, v i * u i) + sqLen n u := by
    unfold sqLen
    rw [mul_sum, ← sum_add_distrib, ← sum_add_distrib]
    exact sum_congr rfl fun i _ => by ring
  rw [e, add_sq, pow_two (len n v), pow_two (len n u), len_mul_self, len_mul_self]
  linarith

theorem len_mono {n : ℕ} {v u : ℕ → ℝ} (h0 : ∀ i < n, 0 ≤ v i) (h : ∀ i < n, v i ≤ u i) : len n v ≤ len n u :=
  Real.sqrt_le_sqrt (sum_le_sum fun i hi => pow_le_pow_left₀ (h0 i (mem_range.1 hi)) (h i (mem_range.1 hi)) 2)

theorem len_smul {n : ℕ} {a : ℝ} (ha : 0 ≤ a) (v : ℕ → ℝ) : len n (fun i => a * v i) = a * len n v := by
  unfold len sqLen
  simp only [mul_pow, ← mul_sum]
  rw [Real.sqrt_mul (by positivity), Real.sqrt_sq ha]

/-- a symmetric matrix of errors with row sums up to `δ` stretches vectors by at most `δ` -/
theorem err_stretch {n : ℕ} {err : ℕ → ℕ → ℝ} (h0 : ∀ p < n, ∀ q < n, 0 ≤ err p q) (hs : ∀ p q, err p q = err q p) {δ : ℝ}
    (hδ : ∀ p < n, ∑ q ∈ range n, err p q ≤ δ) (y : ℕ → ℝ) : len n (fun i => ∑ j ∈ range n, err i j * |y j|) ≤ δ * len n y := by
  have he : ∀ p < n, ∀ q < n, |err p q - (fun _ _ => (0:ℝ)) p q| ≤ err p q := fun p hp q hq => by rw [sub_zero, abs_of_nonneg (h0 p hp q hq)]
  set w : ℕ → ℝ := fun i => ∑ j ∈ range n, err i j * |y j| with hw
  have w0 : ∀ i < n, 0 ≤ w i := fun i hi => sum_nonneg fun j hj => mul_nonneg (h0 i hi j (mem_range.1 hj)) (abs_nonneg _)
  have h1 := err_len he hs hδ w y
  have h2 : ∑ i ∈ range n, ∑ j ∈ range n, err i j * (|w i| * |y j|) = sqLen n w := by
    unfold sqLen
    refine sum_congr rfl fun i hi => ?_
    rw [abs_of_nonneg (w0 i (mem_range.1 hi)), pow_two]
    conv_rhs => rw [show w i * w i = w i * ∑ j ∈ range n, err i j * |y j| from rfl, mul_sum]
    exact sum_congr rfl fun j _ => by ring
  rw [h2, ← len_mul_self] at h1
  rcases (len_nonneg n w).eq_or_lt with h | h
  · rw [← h]
    by_cases hn : n = 0
    · subst hn; simp [len, sqLen]
    · exact mul_nonneg ((sum_nonneg fun q hq => h0 0 (Nat.pos_of_ne_zero hn) q (mem_range.1 hq)).trans (hδ 0 (Nat.pos_of_ne_zero hn))) (len_nonneg _ _)
  · refine le_of_mul_le_mul_right ?_ h
    linarith

namespace Modal
variable {n : ℕ} {K G : ℕ → ℕ → ℝ} {S : Set ℕ} {T : Type} [Fintype T] {p : T → ℕ → ℝ} {μ : T → ℝ} (h : Modal n K G S T p μ) {c : ℝ} (hc0 : 0 < c)
  (hc : ∀ v, Supported n S v → c * sqLen n v ≤ form n K v v)
include h hc0 hc

/-- the components of a load along the modes -/
theorem bessel (ρ : ℕ → ℝ) : c * ∑ a, (∑ i ∈ range n, p a i * ρ i) ^ 2 ≤ freeSq n S ρ := by
  classical
  set s : T → ℝ := fun a => ∑ i ∈ range n, p a i * ρ i with hs
  set v : ℕ → ℝ := fun i => ∑ a, s a * p a i with hv
  have sv : Supported n S v := fun i hi hS => sum_eq_zero fun a _ => by rw [h.sup a i hi hS, mul_zero]
  have cv : ∀ b, form n K (p b) v = s b := by
    intro b
    rw [hv, form_expand_right, sum_eq_single b]
    · rw [h.self, mul_one]
    · intro a _ hab; rw [h.orth b a (Ne.symm hab), mul_zero]
    · intro hn; exact absurd (mem_univ _) hn
  have hQ : form n K v v = ∑ a, s a ^ 2 := by
    rw [h.ksq sv]
    exact sum_congr rfl fun a _ => by rw [cv]
  have hw : ∑ i ∈ range n, v i * Sᶜ.indicator ρ i = ∑ a, s a ^ 2 := by
    have e1 : ∑ i ∈ range n, v i * Sᶜ.indicator ρ i = ∑ i ∈ range n, v i * ρ i := by
      refine sum_congr rfl fun i hi => ?_
      by_cases hS : i ∈ S
      · rw [sv i (mem_range.1 hi) hS, zero_mul, zero_mul]
      · rw [Set.indicator_of_mem (by simpa using hS)]
    rw [e1, hv]
    simp only [sum_mul]
    rw [sum_comm]
    refine sum_congr rfl fun a _ => ?_
    rw [pow_two]
    conv_rhs => rw [show s a * s a = s a * ∑ i ∈ range n, p a i * ρ i from rfl, mul_sum]
    exact sum_congr rfl fun i _ => by ring
  have h1 : ∑ i ∈ range n, v i * Sᶜ.indicator ρ i ≤ len n v * √(freeSq n S ρ) := Real.sum_mul_le_sqrt_mul_sqrt _ _ _
  rw [hw] at h1
  have h2 := hc v sv
  rw [hQ] at h2
  set Q := ∑ a, s a ^ 2 with hQd
  have Q0 : 0 ≤ Q := sum_nonneg fun _ _ => sq_nonneg _
  have F0 : 0 ≤ freeSq n S ρ := sum_nonneg fun _ _ => sq_nonneg _
  have h3 : Q * Q ≤ sqLen n v * freeSq n S ρ := by
    have := mul_le_mul h1 h1 Q0 (mul_nonneg (len_nonneg _ _) (Real.sqrt_nonneg _))
    calc Q * Q ≤ _ := this
      _ = (len n v * len n v) * (√(freeSq n S ρ) * √(freeSq n S ρ)) := by ring
      _ = _ := by rw [len_mul_self, Real.mul_self_sqrt F0]
  rcases Q0.eq_or_lt with hq | hq
  · rw [← hq, mul_zero]; exact F0
  · refine le_of_mul_le_mul_right ?_ hq
    have h4 := mul_le_mul_of_nonneg_right h2 F0
    have h5 := mul_le_mul_of_nonneg_left h3 hc0.le
    linarith

/-- one of the numbers `1 + l μ` is as small as the residual -/
theorem near {l : ℂ} {x : ℕ → ℂ} (hx0 : ∃ i < n, x i ≠ 0) (hxS : ∀ i < n, i ∈ S → x i = 0) {η : ℝ} (hη : 0 ≤ η)
    (hres : √(freeSq n S fun i => ‖∑ j ∈ range n, ((K i j : ℂ) + l * (G i j : ℂ)) * x j‖) ≤ η * len n fun i => ‖x i‖) : ∃ a, c * ‖1 + l * μ a‖ ≤ η := by
  classical
  set ρ : ℕ → ℂ := fun i => ∑ j ∈ range n, ((K i j : ℂ) + l * (G i j : ℂ)) * x j with hρ
  set A := h.coef x with hA
  have proj : ∀ a, A a * (1 + l * μ a) = ∑ i ∈ range n, (p a i : ℂ) * ρ i := by
    intro a
    have e1 := h.cgeo hxS a
    have : ∑ i ∈ range n, (p a i : ℂ) * ρ i =
        ∑ i ∈ range n, (p a i : ℂ) * ∑ j ∈ range n, (K i j : ℂ) * x j + l * ∑ i ∈ range n, (p a i : ℂ) * ∑ j ∈ range n, (G i j : ℂ) * x j := by
      rw [mul_sum, ← sum_add_distrib]
      refine sum_congr rfl fun i _ => ?_
      have : ρ i = ∑ j ∈ range n, (K i j : ℂ) * x j + l * ∑ j ∈ range n, (G i j : ℂ) * x j := by
        rw [hρ, mul_sum, ← sum_add_distrib]; exact sum_congr rfl fun j _ => by ring
      rw [this]; ring
    rw [this, e1]
    change A a * (1 + l * μ a) = A a + l * (μ a * A a)
    ring
  have nrm : ∀ z : ℂ, ‖z‖ ^ 2 = z.re ^ 2 + z.im ^ 2 := fun z => by rw [Complex.sq_norm, Complex.normSq_apply]; ring
  have b1 := h.bessel hc0 hc fun i => (ρ i).re
  have b2 := h.bessel hc0 hc fun i => (ρ i).im
  have fre : freeSq n S (fun i => ‖ρ i‖) = freeSq n S (fun i => (ρ i).re) + freeSq n S (fun i => (ρ i).im) := by
    unfold freeSq
    rw [← sum_add_distrib]
    refine sum_congr rfl fun i _ => ?_
    by_cases hS : i ∈ S
    · simp [hS]
    · rw [Set.indicator_of_mem (by simpa using hS), Set.indicator_of_mem (by simpa using hS), Set.indicator_of_mem (by simpa using hS), nrm]
  have b3 : c * ∑ a, ‖A a‖ ^ 2 * ‖1 + l * μ a‖ ^ 2 ≤ freeSq n S fun i => ‖ρ i‖ := by
    rw [fre]
    refine le_trans (le_of_eq ?_) (add_le_add b1 b2)
    rw [← mul_add, ← sum_add_distrib]
    congr 1
    refine sum_congr rfl fun a _ => ?_
    rw [← mul_pow, ← norm_mul, proj, nrm]
    simp [Complex.re_sum, Complex.im_sum]
  have b4 : c * sqLen n (fun i => ‖x i‖) ≤ ∑ a, ‖A a‖ ^ 2 := by
    have s1 : Supported n S fun i => (x i).re := fun i hi hS => by dsimp only; rw [hxS i hi hS]; rfl
    have s2 : Supported n S fun i => (x i).im := fun i hi hS => by dsimp only; rw [hxS i hi hS]; rfl
    have c1 := hc _ s1
    have c2 := hc _ s2
    rw [h.ksq s1] at c1
    rw [h.ksq s2] at c2
    have : sqLen n (fun i => ‖x i‖) = sqLen n (fun i => (x i).re) + sqLen n fun i => (x i).im := by
      unfold sqLen
      rw [← sum_add_distrib]
      exact sum_congr rfl fun i _ => nrm _
    rw [this, mul_add]
    refine (add_le_add c1 c2).trans (le_of_eq ?_)
    rw [← sum_add_distrib]
    refine sum_congr rfl fun a _ => ?_
    rw [nrm, hA, coef, re_sum, im_sum]
  set L := sqLen n fun i => ‖x i‖ with hL
  have L0 : 0 < L := by
    obtain ⟨i, hi, hne⟩ := hx0
    exact sum_pos' (fun _ _ => sq_nonneg _) ⟨i, mem_range.2 hi, pow_pos (norm_pos_iff.2 hne) 2⟩
  have F0 : 0 ≤ freeSq n S fun i => ‖ρ i‖ := sum_nonneg fun _ _ => sq_nonneg _
  have b5 : freeSq n S (fun i => ‖ρ i‖) ≤ η ^ 2 * L := by
    have := mul_le_mul hres hres (Real.sqrt_nonneg _) (mul_nonneg hη (len_nonneg _ _))
    rw [Real.mul_self_sqrt F0] at this
    calc _ ≤ _ := this
      _ = η ^ 2 * (len n (fun i => ‖x i‖) * len n (fun i => ‖x i‖)) := by ring
      _ = _ := by rw [len_mul_self]
  by_contra hcon
  push Not at hcon
  have hA0 : 0 < ∑ a, ‖A a‖ ^ 2 := (mul_pos hc0 L0).trans_le b4
  obtain ⟨a, -, ha⟩ := exists_ne_zero_of_sum_ne_zero hA0.ne'
  have hlt : η ^ 2 * ∑ a, ‖A a‖ ^ 2 < c ^ 2 * ∑ a, ‖A a‖ ^ 2 * ‖1 + l * μ a‖ ^ 2 := by
    rw [mul_sum, mul_sum]
    have le : ∀ b, η ^ 2 < (c * ‖1 + l * μ b‖) ^ 2 := fun b => pow_lt_pow_left₀ (hcon b) hη two_ne_zero
    refine sum_lt_sum (fun b _ => ?_) ⟨a, mem_univ _, ?_⟩
    · have := mul_le_mul_of_nonneg_left (le b).le (sq_nonneg ‖A b‖)
      calc _ = ‖A b‖ ^ 2 * η ^ 2 := by ring
        _ ≤ _ := this
        _ = _ := by ring
    · have := mul_lt_mul_of_pos_left (le a) (lt_of_le_of_ne (sq_nonneg ‖A a‖) (Ne.symm ha))
      calc _ = ‖A a‖ ^ 2 * η ^ 2 := by ring
        _ < _ := this
        _ = _ := by ring
  have g1 := mul_le_mul_of_nonneg_left b4 (sq_nonneg η)
  have g2 := mul_le_mul_of_nonneg_left (b3.trans b5) hc0.le
  nlinarith
end Modal

section
variable {n : ℕ} {K X e1 G Y e2 : ℕ → ℕ → ℝ} (h1 : ∀ p < n, ∀ q < n, |X p q - K p q| ≤ e1 p q) (h2 : ∀ p < n, ∀ q < n, |Y p q - G p q| ≤ e2 p q)
  (s1 : ∀ p q, e1 p q = e1 q p) (s2 : ∀ p q, e2 p q = e2 q p) {δ γ : ℝ} (hδ : ∀ p < n, ∑ q ∈ range n, e1 p q ≤ δ) (hγ : ∀ p < n, ∑ q ∈ range n, e2 p q ≤ γ)
include h1 h2 s1 s2 hδ hγ

/-- the residual with the exact matrices -/
theorem err_residual {S : Set ℕ} {l : ℂ} {x : ℕ → ℂ} {ε : ℝ}
    (hres : √(freeSq n S fun i => ‖∑ j ∈ range n, ((X i j : ℂ) + l * (Y i j : ℂ)) * x j‖) ≤ ε * len n fun i => ‖x i‖) :
    √(freeSq n S fun i => ‖∑ j ∈ range n, ((K i j : ℂ) + l * (G i j : ℂ)) * x j‖) ≤ (δ + ‖l‖ * γ + ε) * len n fun i => ‖x i‖ := by
  classical
  set y : ℕ → ℝ := fun i => ‖x i‖ with hy
  have a1 := err_stretch (fun p hp q hq => err_nonneg h1 hp hq) s1 hδ y
  have a2 := err_stretch (fun p hp q hq => err_nonneg h2 hp hq) s2 hγ y
  set r := fun i => ‖∑ j ∈ range n, ((X i j : ℂ) + l * (Y i j : ℂ)) * x j‖ with hr
  set w1 : ℕ → ℝ := fun i => ∑ j ∈ range n, e1 i j * |y j| with hw1
  set w2 : ℕ → ℝ := fun i => ∑ j ∈ range n, e2 i j * |y j| with hw2
  have w10 : ∀ i < n, 0 ≤ w1 i := fun i hi => sum_nonneg fun j hj => mul_nonneg (err_nonneg h1 hi (mem_range.1 hj)) (abs_nonneg _)
  have w20 : ∀ i < n, 0 ≤ w2 i := fun i hi => sum_nonneg fun j hj => mul_nonneg (err_nonneg h2 hi (mem_range.1 hj)) (abs_nonneg _)
  have pt : ∀ i < n, ‖∑ j ∈ range n, ((K i j : ℂ) + l * (G i j : ℂ)) * x j‖ ≤ r i + (w1 i + ‖l‖ * w2 i) := by
    intro i hi
    have e : ∑ j ∈ range n, ((K i j : ℂ) + l * (G i j : ℂ)) * x j =
        ∑ j ∈ range n, ((X i j : ℂ) + l * (Y i j : ℂ)) * x j - (∑ j ∈ range n, ((X i j - K i j : ℝ) : ℂ) * x j + l * ∑ j ∈ range n, ((Y i j - G i j : ℝ) : ℂ) * x j) := by
      rw [mul_sum, ← sum_add_distrib, ← sum_sub_distrib]
      refine sum_congr rfl fun j _ => ?_
      push_cast; ring
    rw [e]
    refine (norm_sub_le _ _).trans (add_le_add le_rfl ((norm_add_le _ _).trans (add_le_add ?_ ?_)))
    · refine (norm_sum_le _ _).trans (sum_le_sum fun j hj => ?_)
      rw [norm_mul, Complex.norm_real, Real.norm_eq_abs, hy]
      dsimp only
      rw [abs_of_nonneg (norm_nonneg _)]
      exact mul_le_mul_of_nonneg_right (h1 i hi j (mem_range.1 hj)) (norm_nonneg _)
    · rw [norm_mul]
      refine mul_le_mul_of_nonneg_left ((norm_sum_le _ _).trans (sum_le_sum fun j hj => ?_)) (norm_nonneg _)
      rw [norm_mul, Complex.norm_real, Real.norm_eq_abs, hy]
      dsimp only
      rw [abs_of_nonneg (norm_nonneg _)]
      exact mul_le_mul_of_nonneg_right (h2 i hi j (mem_range.1 hj)) (norm_nonneg _)
  have step : len n (Sᶜ.indicator fun i => ‖∑ j ∈ range n, ((K i j : ℂ) + l * (G i j : ℂ)) * x j‖) ≤ len n fun i => Sᶜ.indicator r i + (w1 i + ‖l‖ * w2 i) := by
    refine len_mono (fun i _ => Set.indicator_nonneg (fun _ _ => norm_nonneg _) _) fun i hi => ?_
    by_cases hS : i ∈ S
    · rw [Set.indicator_of_notMem (by simpa using hS), Set.indicator_of_notMem (by simpa using hS), zero_add]
      exact add_nonneg (w10 i hi) (mul_nonneg (norm_nonneg _) (w20 i hi))
    · rw [Set.indicator_of_mem (by simpa using hS), Set.indicator_of_mem (by simpa using hS)]
      exact pt i hi
  have t1 := len_add n (Sᶜ.indicator r) fun i => w1 i + ‖l‖ * w2 i
  have t2 := len_add n w1 fun i => ‖l‖ * w2 i
  rw [len_smul (norm_nonneg l)] at t2
  have t3 := mul_le_mul_of_nonneg_left a2 (norm_nonneg l)
  have t4 : len n (Sᶜ.indicator r) ≤ ε * len n y := hres
  refine step.trans ?_
  linarith

/-- the energy at a load level -/
theorem err_level (t : ℝ) (ht : 0 ≤ t) (v : ℕ → ℝ) :
    |form n X v v + t * form n Y v v - (form n K v v + t * form n G v v)| ≤ (δ + t * γ) * sqLen n v := by
  have a1 := (err_form h1 v v).trans (err_len h1 s1 hδ v v)
  have a2 := (err_form h2 v v).trans (err_len h2 s2 hγ v v)
  rw [mul_assoc, len_mul_self] at a1 a2
  rw [show form n X v v + t * form n Y v v - (form n K v v + t * form n G v v) = (form n X v v - form n K v v) + t * (form n Y v v - form n G v v) by ring]
  refine (abs_add_le _ _).trans ?_
  rw [abs_mul, abs_of_nonneg ht]
  have := mul_le_mul_of_nonneg_left a2 ht
  linarith
end

end Meshless
