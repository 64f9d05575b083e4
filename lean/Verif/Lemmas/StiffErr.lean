import Verif.Spec.StiffBound
import Verif.Lemmas.Condition
import Mathlib.Analysis.MeanInequalities

/-! Matrices that differ by given errors (C158, C159). -/

set_option autoImplicit false

namespace Meshless
open Spec Finset

section
variable {n : ℕ} {K X err : ℕ → ℕ → ℝ} (he : ∀ p < n, ∀ q < n, |X p q - K p q| ≤ err p q)
include he

theorem err_nonneg {p q : ℕ} (hp : p < n) (hq : q < n) : 0 ≤ err p q := (abs_nonneg _).trans (he p hp q hq)

theorem err_form (v u : ℕ → ℝ) : |form n X v u - form n K v u| ≤ ∑ i ∈ range n, ∑ j ∈ range n, err i j * (|v i| * |u j|) := by
  unfold form
  simp only [← sum_sub_distrib]
  refine (abs_sum_le_sum_abs _ _).trans (sum_le_sum fun i hi => (abs_sum_le_sum_abs _ _).trans (sum_le_sum fun j hj => ?_))
  have : v i * X i j * u j - v i * K i j * u j = (X i j - K i j) * (v i * u j) := by ring
  rw [this, abs_mul, abs_mul (v i)]
  exact mul_le_mul_of_nonneg_right (he i (mem_range.1 hi) j (mem_range.1 hj)) (by positivity)

theorem err_row {u : ℕ → ℝ} {i : ℕ} (hi : i < n) (h0 : ∑ j ∈ range n, K i j * u j = 0) : |∑ j ∈ range n, X i j * u j| ≤ ∑ j ∈ range n, err i j * |u j| := by
  have : ∑ j ∈ range n, X i j * u j = ∑ j ∈ range n, (X i j - K i j) * u j := by
    simp only [sub_mul, sum_sub_distrib]
    rw [h0, sub_zero]
  rw [this]
  refine (abs_sum_le_sum_abs _ _).trans (sum_le_sum fun j hj => ?_)
  rw [abs_mul]
  exact mul_le_mul_of_nonneg_right (he i hi j (mem_range.1 hj)) (abs_nonneg _)

theorem err_sq (hs : ∀ p q, err p q = err q p) (z : ℕ → ℝ) :
    ∑ i ∈ range n, ∑ j ∈ range n, err i j * (|z i| * |z j|) ≤ ∑ i ∈ range n, (∑ j ∈ range n, err i j) * z i ^ 2 := by
  have h3 : ∑ i ∈ range n, ∑ j ∈ range n, err i j * (|z i| * |z j|) ≤ ∑ i ∈ range n, ∑ j ∈ range n, (err i j * z i ^ 2 / 2 + err i j * z j ^ 2 / 2) := by
    refine sum_le_sum fun i hi => sum_le_sum fun j hj => ?_
    have := mul_le_mul_of_nonneg_left (two_mul_le_add_sq |z i| |z j|) (err_nonneg he (mem_range.1 hi) (mem_range.1 hj))
    rw [sq_abs, sq_abs] at this
    linarith
  have h4 : ∑ i ∈ range n, ∑ j ∈ range n, err i j * z j ^ 2 / 2 = ∑ i ∈ range n, ∑ j ∈ range n, err i j * z i ^ 2 / 2 := by
    rw [sum_comm]
    refine sum_congr rfl fun i _ => sum_congr rfl fun j _ => ?_
    rw [hs]
  refine h3.trans (le_of_eq ?_)
  simp only [sum_add_distrib]
  rw [h4, ← sum_add_distrib]
  refine sum_congr rfl fun i _ => ?_
  rw [← sum_add_distrib, sum_mul]
  exact sum_congr rfl fun j _ => by ring

theorem err_len (hs : ∀ p q, err p q = err q p) {δ : ℝ} (hδ : ∀ p < n, ∑ q ∈ range n, err p q ≤ δ) (v u : ℕ → ℝ) :
    ∑ i ∈ range n, ∑ j ∈ range n, err i j * (|v i| * |u j|) ≤ δ * len n v * len n u := by
  by_cases h0 : n = 0
  · subst h0; simp [len, sqLen]
  have hδ0 : 0 ≤ δ := (sum_nonneg fun q hq => err_nonneg he (Nat.pos_of_ne_zero h0) (mem_range.1 hq)).trans (hδ 0 (Nat.pos_of_ne_zero h0))
  have e1 : ∀ (w : ℕ → ℝ), ∑ i ∈ range n, ∑ j ∈ range n, err i j * w i ^ 2 ≤ δ * sqLen n w := fun w => by
    unfold sqLen
    rw [mul_sum]
    refine sum_le_sum fun i hi => ?_
    rw [← sum_mul]
    exact mul_le_mul_of_nonneg_right (hδ i (mem_range.1 hi)) (sq_nonneg _)
  have e2 : ∑ i ∈ range n, ∑ j ∈ range n, err i j * u j ^ 2 ≤ δ * sqLen n u := by
    rw [sum_comm]
    refine le_trans (le_of_eq ?_) (e1 u)
    exact sum_congr rfl fun i _ => sum_congr rfl fun j _ => by rw [hs]
  have nn : ∀ x ∈ range n ×ˢ range n, 0 ≤ err x.1 x.2 := fun x hx => by
    obtain ⟨h1, h2⟩ := mem_product.1 hx
    exact err_nonneg he (mem_range.1 h1) (mem_range.1 h2)
  have e3 : ∑ i ∈ range n, ∑ j ∈ range n, err i j * (|v i| * |u j|) = ∑ x ∈ range n ×ˢ range n, √(err x.1 x.2) * |v x.1| * (√(err x.1 x.2) * |u x.2|) := by
    rw [← sum_product']
    refine sum_congr rfl fun x hx => ?_
    calc err x.1 x.2 * (|v x.1| * |u x.2|) = (√(err x.1 x.2) * √(err x.1 x.2)) * (|v x.1| * |u x.2|) := by rw [Real.mul_self_sqrt (nn x hx)]
      _ = _ := by ring
  have e4 : ∑ x ∈ range n ×ˢ range n, (√(err x.1 x.2) * |v x.1|) ^ 2 = ∑ i ∈ range n, ∑ j ∈ range n, err i j * v i ^ 2 := by
    rw [← sum_product']
    exact sum_congr rfl fun x hx => by rw [mul_pow, Real.sq_sqrt (nn x hx), sq_abs]
  have e5 : ∑ x ∈ range n ×ˢ range n, (√(err x.1 x.2) * |u x.2|) ^ 2 = ∑ i ∈ range n, ∑ j ∈ range n, err i j * u j ^ 2 := by
    rw [← sum_product']
    exact sum_congr rfl fun x hx => by rw [mul_pow, Real.sq_sqrt (nn x hx), sq_abs]
  rw [e3]
  refine (Real.sum_mul_le_sqrt_mul_sqrt _ _ _).trans ?_
  rw [e4, e5]
  calc √(∑ i ∈ range n, ∑ j ∈ range n, err i j * v i ^ 2) * √(∑ i ∈ range n, ∑ j ∈ range n, err i j * u j ^ 2) ≤ √(δ * sqLen n v) * √(δ * sqLen n u) :=
        mul_le_mul (Real.sqrt_le_sqrt (e1 v)) (Real.sqrt_le_sqrt e2) (Real.sqrt_nonneg _) (Real.sqrt_nonneg _)
    _ = √δ * √δ * √(sqLen n v) * √(sqLen n u) := by rw [Real.sqrt_mul hδ0, Real.sqrt_mul hδ0]; ring
    _ = _ := by rw [Real.mul_self_sqrt hδ0]; rfl

/-- the solution of a problem with an inexact matrix -/
theorem err_static (hs : ∀ p q, err p q = err q p) {δ : ℝ} (hδ : ∀ p < n, ∑ q ∈ range n, err p q ≤ δ) {S : Set ℕ} {c : ℝ}
    (hc : ∀ v, Supported n S v → c * sqLen n v ≤ form n K v v) {p r d d' : ℕ → ℝ} (h1 : Supported n S d) (h2 : Supported n S d')
    (h3 : ∀ i < n, i ∉ S → ∑ j ∈ range n, K i j * d j = p i) (h4 : ∀ i < n, i ∉ S → ∑ j ∈ range n, X i j * d' j = p i + r i) :
    (c - δ) * len n (fun i => d' i - d i) ≤ δ * len n d + √(freeSq n S r) := by
  set z : ℕ → ℝ := fun i => d' i - d i with hz
  have sz : Supported n S z := fun i hi hS => by rw [hz]; dsimp only; rw [h1 i hi hS, h2 i hi hS, sub_zero]
  have l0 : 0 ≤ len n z := Real.sqrt_nonneg _
  have lz : len n z * len n z = sqLen n z := Real.mul_self_sqrt (sum_nonneg fun _ _ => sq_nonneg _)
  have e1 := err_form he z z
  have e2 := err_len he hs hδ z z
  have e3 := err_form he z d
  have e4 := err_len he hs hδ z d
  have e5 : form n X z z = ∑ i ∈ range n, z i * Sᶜ.indicator r i - (form n X z d - form n K z d) := by
    unfold form
    rw [← sum_sub_distrib, ← sum_sub_distrib]
    refine sum_congr rfl fun i hi => ?_
    by_cases hS : i ∈ S
    · simp [sz i (mem_range.1 hi) hS]
    · have a1 := h3 i (mem_range.1 hi) hS
      have a2 := h4 i (mem_range.1 hi) hS
      rw [Set.indicator_of_mem (by simpa using hS)]
      simp only [mul_assoc, ← mul_sum]
      rw [a1, ← mul_sub, ← mul_sub]
      congr 1
      have : ∑ j ∈ range n, X i j * z j = ∑ j ∈ range n, X i j * d' j - ∑ j ∈ range n, X i j * d j := by
        rw [← sum_sub_distrib]
        exact sum_congr rfl fun j _ => by rw [hz]; ring
      rw [this, a2]; ring
  have e6 : ∑ i ∈ range n, z i * Sᶜ.indicator r i ≤ len n z * √(freeSq n S r) := Real.sum_mul_le_sqrt_mul_sqrt _ _ _
  have e7 := hc z sz
  have e8 : (c - δ) * len n z * len n z ≤ (δ * len n d + √(freeSq n S r)) * len n z := by
    have b1 := (abs_le.1 e1).1
    have b2 := (abs_le.1 e3).1
    have : (c - δ) * len n z * len n z = c * sqLen n z - δ * len n z * len n z := by rw [← lz]; ring
    rw [this]
    have : (δ * len n d + √(freeSq n S r)) * len n z = δ * len n z * len n d + len n z * √(freeSq n S r) := by ring
    rw [this]
    linarith
  rcases l0.eq_or_lt with h | h
  · rw [← h, mul_zero]
    by_cases h0 : n = 0
    · subst h0
      simp only [len, sqLen, range_zero, sum_empty, Real.sqrt_zero, mul_zero, zero_add]
      exact Real.sqrt_nonneg _
    · have hδ0 : 0 ≤ δ := (sum_nonneg fun q hq => err_nonneg he (Nat.pos_of_ne_zero h0) (mem_range.1 hq)).trans (hδ 0 (Nat.pos_of_ne_zero h0))
      exact add_nonneg (mul_nonneg hδ0 (Real.sqrt_nonneg _)) (Real.sqrt_nonneg _)
  · exact le_of_mul_le_mul_right e8 h

/-- the inexact matrix is nearly as stiff -/
theorem err_stiff (hs : ∀ p q, err p q = err q p) {δ : ℝ} (hδ : ∀ p < n, ∑ q ∈ range n, err p q ≤ δ) {c : ℝ} {v : ℕ → ℝ}
    (hc : c * sqLen n v ≤ form n K v v) : (c - δ) * sqLen n v ≤ form n X v v := by
  have lz : len n v * len n v = sqLen n v := Real.mul_self_sqrt (sum_nonneg fun _ _ => sq_nonneg _)
  have e1 := (abs_le.1 (err_form he v v)).1
  have e2 := err_len he hs hδ v v
  rw [mul_assoc, lz] at e2
  linarith
end

end Meshless
