import Verif.Spec.Guided
import Verif.Props.Converge

/-! Korn's and Poincaré's inequalities for supports that leave some directions free. -/

set_option autoImplicit false

namespace Meshless
open Spec Finset

section
variable {m : Mesh}

/-- the determinant of the derivatives of two nodal fields has zero integral if the pairs of values at the ends of the boundary edges are parallel -/
theorem det_zero_parallel (w : WF m) (hp : Proper m) (hg : Planar m) {f g : ℕ → ℝ} (hf : ∀ k, IsRim m k → f k.1 * g k.2 = f k.2 * g k.1) :
    (m.eids.map fun e => triArea m e * (gradX m (tpoly m e) f * gradY m (tpoly m e) g - gradY m (tpoly m e) f * gradX m (tpoly m e) g)).sum = 0 := by
  have h := flux_zero w hp hg (c := fun i j => (f i * g j - f j * g i) / 2) (fun i j => by ring) fun k hk h1 => by
    rw [hf k ⟨hk, h1⟩, sub_self, zero_div]
  rw [← h]
  congr 1
  refine List.map_congr_left fun e he => ?_
  obtain ⟨c, p, q, hA⟩ := aff_exists w hp hg he f
  obtain ⟨c', p', q', hA'⟩ := aff_exists w hp hg he g
  obtain ⟨e1, e2⟩ := tri_grad hg he hA
  obtain ⟨e3, e4⟩ := tri_grad hg he hA'
  rw [e1, e2, e3, e4, tri_sg hg he]
  rw [hA _ (Or.inl rfl), hA _ (Or.inr (Or.inl rfl)), hA _ (Or.inr (Or.inr rfl)), hA' _ (Or.inl rfl), hA' _ (Or.inr (Or.inl rfl)), hA' _ (Or.inr (Or.inr rfl))]
  ring

/-- Korn -/
theorem korn_parallel (w : WF m) (hp : Proper m) (hg : Planar m) {f g : ℕ → ℝ} (hf : ∀ k, IsRim m k → f k.1 * g k.2 = f k.2 * g k.1) :
    (m.eids.map fun e => triArea m e * (gradX m (tpoly m e) f ^ 2 + gradY m (tpoly m e) f ^ 2 + gradX m (tpoly m e) g ^ 2 + gradY m (tpoly m e) g ^ 2)).sum ≤
      2 * (m.eids.map fun e => triArea m e * (gradX m (tpoly m e) f ^ 2 + gradY m (tpoly m e) g ^ 2 + (gradY m (tpoly m e) f + gradX m (tpoly m e) g) ^ 2)).sum := by
  have h := det_zero_parallel w hp hg hf
  have e1 : 2 * (m.eids.map fun e => triArea m e * (gradX m (tpoly m e) f ^ 2 + gradY m (tpoly m e) g ^ 2 + (gradY m (tpoly m e) f + gradX m (tpoly m e) g) ^ 2)).sum =
      2 * (m.eids.map fun e => triArea m e * (gradX m (tpoly m e) f ^ 2 + gradY m (tpoly m e) g ^ 2 + (gradY m (tpoly m e) f + gradX m (tpoly m e) g) ^ 2)).sum +
      2 * (m.eids.map fun e => triArea m e * (gradX m (tpoly m e) f * gradY m (tpoly m e) g - gradY m (tpoly m e) f * gradX m (tpoly m e) g)).sum := by rw [h]; ring
  rw [e1, ← List.sum_map_mul_left, ← List.sum_map_mul_left, ← List.sum_map_add]
  refine List.sum_le_sum fun e _ => ?_
  have hA : 0 ≤ triArea m e := abs_nonneg _
  generalize gradX m (tpoly m e) f = a
  generalize gradY m (tpoly m e) f = b
  generalize gradX m (tpoly m e) g = c
  generalize gradY m (tpoly m e) g = d
  have : a ^ 2 + b ^ 2 + c ^ 2 + d ^ 2 ≤ 2 * (a ^ 2 + d ^ 2 + (b + c) ^ 2) + 2 * (a * d - b * c) := by nlinarith [sq_nonneg (a + d), sq_nonneg (b + c)]
  have := mul_le_mul_of_nonneg_left this hA
  linarith

theorem poincare_alg {R g x1 x2 x3 : ℝ} (f1 f2 f3 : ℝ) (r1 : |x1| ≤ R) (r2 : |x2| ≤ R) (r3 : |x3| ≤ R) : f1 ^ 2 + f2 ^ 2 + f3 ^ 2 + (f1 + f2 + f3) ^ 2 ≤
    48 * (g ^ 2 * R ^ 2) + 2 * (f1 ^ 2 + f2 ^ 2 + f3 ^ 2 + (f1 + f2 + f3) ^ 2 + 2 * (g * (x1 * f1) + g * (x2 * f2) + g * (x3 * f3) + g * ((x1 + x2 + x3) * (f1 + f2 + f3)))) := by
  have sq : ∀ x : ℝ, |x| ≤ R → x ^ 2 ≤ R ^ 2 := fun x hx => by rw [← sq_abs]; exact pow_le_pow_left₀ (abs_nonneg _) hx 2
  have y : ∀ x t : ℝ, -(2 * (g * (x * t))) ≤ t ^ 2 / 2 + 2 * (g ^ 2 * x ^ 2) := fun x t => by nlinarith [sq_nonneg (t + 2 * (g * x))]
  have b : ∀ x : ℝ, |x| ≤ R → g ^ 2 * x ^ 2 ≤ g ^ 2 * R ^ 2 := fun x hx => mul_le_mul_of_nonneg_left (sq x hx) (sq_nonneg g)
  have b3 : g ^ 2 * (x1 + x2 + x3) ^ 2 ≤ 9 * (g ^ 2 * R ^ 2) := by
    have : |x1 + x2 + x3| ≤ 3 * R := by rw [abs_le] at *; constructor <;> linarith [r1.1, r1.2, r2.1, r2.2, r3.1, r3.2]
    have := pow_le_pow_left₀ (abs_nonneg _) this 2
    rw [sq_abs] at this
    have := mul_le_mul_of_nonneg_left this (sq_nonneg g)
    linarith
  linarith [y x1 f1, y x2 f2, y x3 f3, y (x1 + x2 + x3) (f1 + f2 + f3), b x1 r1, b x2 r2, b x3 r3]

/-- Poincaré along `x` -/
theorem poincare_x (w : WF m) (hp : Proper m) (hg : Planar m) {R x0 : ℝ} (hR : ∀ e ∈ m.eids, ∀ i, IsCorner m e i → |nx m i - x0| ≤ R) {f : ℕ → ℝ}
    (hf : ∀ k, IsRim m k → (f k.1 = 0 ∧ f k.2 = 0) ∨ ny m k.1 = ny m k.2 ∨ (nx m k.1 = x0 ∧ nx m k.2 = x0)) :
    (m.eids.map fun e => triArea m e * (f (m.tria e).n1 ^ 2 + f (m.tria e).n2 ^ 2 + f (m.tria e).n3 ^ 2 + (f (m.tria e).n1 + f (m.tria e).n2 + f (m.tria e).n3) ^ 2)).sum ≤
      48 * R ^ 2 * (m.eids.map fun e => triArea m e * gradX m (tpoly m e) f ^ 2).sum := by
  have h : (m.eids.map fun e => triArea m e * (f (m.tria e).n1 ^ 2 + f (m.tria e).n2 ^ 2 + f (m.tria e).n3 ^ 2 + (f (m.tria e).n1 + f (m.tria e).n2 + f (m.tria e).n3) ^ 2 + 2 * (
      gradX m (tpoly m e) f * ((nx m (m.tria e).n1 - x0) * f (m.tria e).n1) + gradX m (tpoly m e) f * ((nx m (m.tria e).n2 - x0) * f (m.tria e).n2) +
      gradX m (tpoly m e) f * ((nx m (m.tria e).n3 - x0) * f (m.tria e).n3) + gradX m (tpoly m e) f *
        (((nx m (m.tria e).n1 - x0) + (nx m (m.tria e).n2 - x0) + (nx m (m.tria e).n3 - x0)) * (f (m.tria e).n1 + f (m.tria e).n2 + f (m.tria e).n3))))).sum = 0 := by
    have h := flux_zero w hp hg (c := fun i j => (ny m j - ny m i) * ((nx m i - x0) * (3 * f i ^ 2 + 2 * f i * f j + f j ^ 2) + (nx m j - x0) * (f i ^ 2 + 2 * f i * f j + 3 * f j ^ 2)))
      (fun i j => by ring) fun k hk h1 => by
      rcases hf k ⟨hk, h1⟩ with ⟨a, b⟩ | a | ⟨a, b⟩
      · rw [a, b]; ring
      · rw [a]; ring
      · rw [a, b]; ring
    rw [← h]
    congr 1
    refine List.map_congr_left fun e he => ?_
    obtain ⟨c, p, q, hA⟩ := aff_exists w hp hg he f
    obtain ⟨e1, e2⟩ := tri_grad hg he hA
    rw [e1, tri_sg hg he]
    rw [hA _ (Or.inl rfl), hA _ (Or.inr (Or.inl rfl)), hA _ (Or.inr (Or.inr rfl))]
    ring
  rw [← add_zero (48 * R ^ 2 * _), show (0 : ℝ) = 2 * 0 by ring, ← h, ← List.sum_map_mul_left, ← List.sum_map_mul_left, ← List.sum_map_add]
  refine List.sum_le_sum fun e he => ?_
  have hA : 0 ≤ triArea m e := abs_nonneg _
  have := mul_le_mul_of_nonneg_left (poincare_alg (g := gradX m (tpoly m e) f) (f (m.tria e).n1) (f (m.tria e).n2) (f (m.tria e).n3) (hR e he _ (Or.inl rfl)) (hR e he _ (Or.inr (Or.inl rfl)))
    (hR e he _ (Or.inr (Or.inr rfl)))) hA
  linarith

/-- Poincaré along `y` -/
theorem poincare_y (w : WF m) (hp : Proper m) (hg : Planar m) {R y0 : ℝ} (hR : ∀ e ∈ m.eids, ∀ i, IsCorner m e i → |ny m i - y0| ≤ R) {f : ℕ → ℝ}
    (hf : ∀ k, IsRim m k → (f k.1 = 0 ∧ f k.2 = 0) ∨ nx m k.1 = nx m k.2 ∨ (ny m k.1 = y0 ∧ ny m k.2 = y0)) :
    (m.eids.map fun e => triArea m e * (f (m.tria e).n1 ^ 2 + f (m.tria e).n2 ^ 2 + f (m.tria e).n3 ^ 2 + (f (m.tria e).n1 + f (m.tria e).n2 + f (m.tria e).n3) ^ 2)).sum ≤
      48 * R ^ 2 * (m.eids.map fun e => triArea m e * gradY m (tpoly m e) f ^ 2).sum := by
  have h : (m.eids.map fun e => triArea m e * (f (m.tria e).n1 ^ 2 + f (m.tria e).n2 ^ 2 + f (m.tria e).n3 ^ 2 + (f (m.tria e).n1 + f (m.tria e).n2 + f (m.tria e).n3) ^ 2 + 2 * (
      gradY m (tpoly m e) f * ((ny m (m.tria e).n1 - y0) * f (m.tria e).n1) + gradY m (tpoly m e) f * ((ny m (m.tria e).n2 - y0) * f (m.tria e).n2) +
      gradY m (tpoly m e) f * ((ny m (m.tria e).n3 - y0) * f (m.tria e).n3) + gradY m (tpoly m e) f *
        (((ny m (m.tria e).n1 - y0) + (ny m (m.tria e).n2 - y0) + (ny m (m.tria e).n3 - y0)) * (f (m.tria e).n1 + f (m.tria e).n2 + f (m.tria e).n3))))).sum = 0 := by
    have h := flux_zero w hp hg (c := fun i j => (nx m i - nx m j) * ((ny m i - y0) * (3 * f i ^ 2 + 2 * f i * f j + f j ^ 2) + (ny m j - y0) * (f i ^ 2 + 2 * f i * f j + 3 * f j ^ 2)))
      (fun i j => by ring) fun k hk h1 => by
      rcases hf k ⟨hk, h1⟩ with ⟨a, b⟩ | a | ⟨a, b⟩
      · rw [a, b]; ring
      · rw [a]; ring
      · rw [a, b]; ring
    rw [← h]
    congr 1
    refine List.map_congr_left fun e he => ?_
    obtain ⟨c, p, q, hA⟩ := aff_exists w hp hg he f
    obtain ⟨e1, e2⟩ := tri_grad hg he hA
    rw [e2, tri_sg hg he]
    rw [hA _ (Or.inl rfl), hA _ (Or.inr (Or.inl rfl)), hA _ (Or.inr (Or.inr rfl))]
    ring
  rw [← add_zero (48 * R ^ 2 * _), show (0 : ℝ) = 2 * 0 by ring, ← h, ← List.sum_map_mul_left, ← List.sum_map_mul_left, ← List.sum_map_add]
  refine List.sum_le_sum fun e he => ?_
  have hA : 0 ≤ triArea m e := abs_nonneg _
  have := mul_le_mul_of_nonneg_left (poincare_alg (g := gradY m (tpoly m e) f) (f (m.tria e).n1) (f (m.tria e).n2) (f (m.tria e).n3) (hR e he _ (Or.inl rfl)) (hR e he _ (Or.inr (Or.inl rfl)))
    (hR e he _ (Or.inr (Or.inr rfl)))) hA
  linarith

theorem rim_lt (w : WF m) (hp : Proper m) {k : Key} (hk : IsRim m k) : m.nids.idxOf k.1 < m.nids.length ∧ m.nids.idxOf k.2 < m.nids.length := by
  obtain ⟨hk, h1⟩ := hk
  obtain ⟨t, ht⟩ : ∃ t, t ∈ (m.edge k).trias := List.exists_mem_of_ne_nil _ (by rintro h; rw [h] at h1; simp at h1)
  obtain ⟨ht, c1, c2⟩ := edge_tria w hp hk ht
  exact ⟨List.idxOf_lt_length_iff.2 (corner_mem w hp.distinct ht c1), List.idxOf_lt_length_iff.2 (corner_mem w hp.distinct ht c2)⟩

section
variable (w : WF m) (hp : Proper m) (hg : Planar m) {S : Set ℕ} {R : ℝ} {v : ℕ → ℝ} (hv : ∀ i < 5 * m.nids.length, i ∈ S → v i = 0)
include w hp hv

theorem Spec.FixedOn.zero {k : Key} (hk : IsRim m k) {r : ℕ} (hr : r < 5) (h : FixedOn m S r k) : disp m v r k.1 = 0 ∧ disp m v r k.2 = 0 := by
  obtain ⟨a, b⟩ := rim_lt w hp hk
  exact ⟨hv _ (by omega) h.1, hv _ (by omega) h.2⟩

theorem Spec.OneFree.parallel {p q : ℕ} (hp5 : p < 5) (hq5 : q < 5) (h : OneFree m S p q) (k : Key) (hk : IsRim m k) : disp m v p k.1 * disp m v q k.2 = disp m v p k.2 * disp m v q k.1 := by
  obtain ⟨a, b⟩ := rim_lt w hp hk
  rcases h k hk with h | h | h | h
  · obtain ⟨e1, e2⟩ := h.zero w hp hv hk hp5
    rw [e1, e2]; ring
  · obtain ⟨e1, e2⟩ := h.zero w hp hv hk hq5
    rw [e1, e2]; ring
  · have e1 : disp m v p k.1 = 0 := hv _ (by omega) h.1
    have e2 : disp m v q k.1 = 0 := hv _ (by omega) h.2
    rw [e1, e2]; ring
  · have e1 : disp m v p k.2 = 0 := hv _ (by omega) h.1
    have e2 : disp m v q k.2 = 0 := hv _ (by omega) h.2
    rw [e1, e2]; ring

include hg

/-- values in a direction held along lines -/
theorem held_values {r : ℕ} (hr : r < 5) (h : HeldAlongX m S R r ∨ HeldAlongY m S R r) :
    (m.eids.map fun e => triArea m e * (disp m v r (m.tria e).n1 ^ 2 + disp m v r (m.tria e).n2 ^ 2 + disp m v r (m.tria e).n3 ^ 2 +
        (disp m v r (m.tria e).n1 + disp m v r (m.tria e).n2 + disp m v r (m.tria e).n3) ^ 2)).sum ≤
      48 * R ^ 2 * (m.eids.map fun e => triArea m e * (gradX m (tpoly m e) (disp m v r) ^ 2 + gradY m (tpoly m e) (disp m v r) ^ 2)).sum := by
  have mono : ∀ {a b : ℕ → ℝ}, (∀ e, a e ≤ b e) → 48 * R ^ 2 * (m.eids.map fun e => triArea m e * a e).sum ≤ 48 * R ^ 2 * (m.eids.map fun e => triArea m e * b e).sum := fun h =>
    mul_le_mul_of_nonneg_left (List.sum_le_sum fun e _ => mul_le_mul_of_nonneg_left (h e) (abs_nonneg _)) (by positivity)
  rcases h with ⟨x0, h1, h2⟩ | ⟨x0, h1, h2⟩
  · refine (poincare_x w hp hg h1 fun k hk => ?_).trans (mono fun e => by linarith [sq_nonneg (gradY m (tpoly m e) (disp m v r))])
    exact (h2 k hk).imp_left fun h => h.zero w hp hv hk hr
  · refine (poincare_y w hp hg h1 fun k hk => ?_).trans (mono fun e => by linarith [sq_nonneg (gradX m (tpoly m e) (disp m v r))])
    exact (h2 k hk).imp_left fun h => h.zero w hp hv hk hr
end

/-- supports that guide the rotations control them by the curvatures -/
theorem guided_rotHeld (w : WF m) (hp : Proper m) (hg : Planar m) {R : ℝ} {Sp : Set ℕ} (hc : RotGuided m Sp R) : RotHeld m Sp (2 + 96 * R ^ 2) := by
  intro v hv
  have k1 := korn_parallel w hp hg (hc.oneFree.parallel w hp hv (by norm_num) (by norm_num))
  have p3 := held_values w hp hg hv (r := 3) (by norm_num) (hc.held 3 (Or.inl rfl))
  have p4 := held_values w hp hg hv (r := 4) (by norm_num) (hc.held 4 (Or.inr rfl))
  have hsum : ∀ {a b : ℕ → ℝ}, (∀ e, a e ≤ b e) → (m.eids.map fun e => triArea m e * a e).sum ≤ (m.eids.map fun e => triArea m e * b e).sum := fun h =>
    List.sum_le_sum fun e _ => mul_le_mul_of_nonneg_left (h e) (abs_nonneg _)
  have k2 : (m.eids.map fun e => triArea m e * (gradX m (tpoly m e) (disp m v 3) ^ 2 + gradY m (tpoly m e) (disp m v 4) ^ 2 + (gradY m (tpoly m e) (disp m v 3) + gradX m (tpoly m e) (disp m v 4)) ^ 2)).sum ≤
      strainSize m v := by
    refine hsum fun e => ?_
    rw [sumsq6]
    simp only [triEps, Matrix.cons_val_zero, Matrix.cons_val_one, Matrix.cons_val]
    linarith [sq_nonneg (gradX m (tpoly m e) (disp m v 0)), sq_nonneg (gradY m (tpoly m e) (disp m v 1)), sq_nonneg (gradY m (tpoly m e) (disp m v 0) + gradX m (tpoly m e) (disp m v 1))]
  have k3 : rotSize m v ≤ (m.eids.map fun e => triArea m e * (gradX m (tpoly m e) (disp m v 3) ^ 2 + gradY m (tpoly m e) (disp m v 3) ^ 2 + gradX m (tpoly m e) (disp m v 4) ^ 2 + gradY m (tpoly m e) (disp m v 4) ^ 2)).sum +
      ((m.eids.map fun e => triArea m e * (disp m v 3 (m.tria e).n1 ^ 2 + disp m v 3 (m.tria e).n2 ^ 2 + disp m v 3 (m.tria e).n3 ^ 2 + (disp m v 3 (m.tria e).n1 + disp m v 3 (m.tria e).n2 + disp m v 3 (m.tria e).n3) ^ 2)).sum +
      (m.eids.map fun e => triArea m e * (disp m v 4 (m.tria e).n1 ^ 2 + disp m v 4 (m.tria e).n2 ^ 2 + disp m v 4 (m.tria e).n3 ^ 2 + (disp m v 4 (m.tria e).n1 + disp m v 4 (m.tria e).n2 + disp m v 4 (m.tria e).n3) ^ 2)).sum) := by
    unfold rotSize
    rw [← List.sum_map_add, ← List.sum_map_add]
    refine List.sum_le_sum fun e _ => ?_
    rw [← mul_add, ← mul_add]
    refine mul_le_mul_of_nonneg_left ?_ (abs_nonneg _)
    rw [Fin.sum_univ_four, Fin.sum_univ_two, rotSum_eq, rotSum_eq]
    simp only [rotGrad, Matrix.cons_val_zero, Matrix.cons_val_one, Matrix.cons_val]
    change _ + ((disp m v 3 _ + disp m v 3 _ + disp m v 3 _) ^ 2 + (disp m v 4 _ + disp m v 4 _ + disp m v 4 _) ^ 2) ≤ _
    have := fun r i => sq_nonneg (disp m v r i)
    linarith [this 3 (m.tria e).n1, this 3 (m.tria e).n2, this 3 (m.tria e).n3, this 4 (m.tria e).n1, this 4 (m.tria e).n2, this 4 (m.tria e).n3]
  have k4 : (m.eids.map fun e => triArea m e * (gradX m (tpoly m e) (disp m v 3) ^ 2 + gradY m (tpoly m e) (disp m v 3) ^ 2)).sum +
      (m.eids.map fun e => triArea m e * (gradX m (tpoly m e) (disp m v 4) ^ 2 + gradY m (tpoly m e) (disp m v 4) ^ 2)).sum =
      (m.eids.map fun e => triArea m e * (gradX m (tpoly m e) (disp m v 3) ^ 2 + gradY m (tpoly m e) (disp m v 3) ^ 2 + gradX m (tpoly m e) (disp m v 4) ^ 2 + gradY m (tpoly m e) (disp m v 4) ^ 2)).sum := by
    rw [← List.sum_map_add]
    congr 1
    exact List.map_congr_left fun e _ => by ring
  have k5 := mul_le_mul_of_nonneg_left (k1.trans (mul_le_mul_of_nonneg_left k2 (by norm_num))) (by positivity : 0 ≤ 48 * R ^ 2)
  rw [← k4] at k5
  linarith

/-- all displacements against strains and rotations -/
theorem guided_dispSize (w : WF m) (hp : Proper m) (hg : Planar m) {s h : ℝ} (hs : Shape m s) (hh : Size m h) {R : ℝ} {Sp : Set ℕ} (hc : Guided m Sp R) (method : String) {v : ℕ → ℝ}
    (hv : ∀ i < 5 * m.nids.length, i ∈ Sp → v i = 0) : dispSize m v ≤
      48 * R ^ 2 * (6 + 48 * (3 * s * h + litErr method) ^ 2 + 144 * R ^ 2) * (strainSize m v + gammaSize m method v + rotSize m v) := by
  obtain ⟨q1, q2, q3⟩ := size_of_pos (m := m) (v := v)
  have q2 := q2 method
  set X := strainSize m v + gammaSize m method v + rotSize m v with hX
  set D : ℕ → ℝ := fun r => (m.eids.map fun e => triArea m e * (disp m v r (m.tria e).n1 ^ 2 + disp m v r (m.tria e).n2 ^ 2 + disp m v r (m.tria e).n3 ^ 2)).sum with hD
  set G : ℕ → ℝ := fun r => (m.eids.map fun e => triArea m e * (gradX m (tpoly m e) (disp m v r) ^ 2 + gradY m (tpoly m e) (disp m v r) ^ 2)).sum with hG
  have hsum : ∀ {a b : ℕ → ℝ}, (∀ e ∈ m.eids, a e ≤ b e) → (m.eids.map fun e => triArea m e * a e).sum ≤ (m.eids.map fun e => triArea m e * b e).sum := fun h =>
    List.sum_le_sum fun e he => mul_le_mul_of_nonneg_left (h e he) (abs_nonneg _)
  have hadd : ∀ (a b : ℕ → ℝ), (m.eids.map fun e => triArea m e * (a e + b e)).sum = (m.eids.map fun e => triArea m e * a e).sum + (m.eids.map fun e => triArea m e * b e).sum := fun a b => by
    rw [← List.sum_map_add]; congr 1; exact List.map_congr_left fun e _ => by ring
  have hmul : ∀ (t : ℝ) (a : ℕ → ℝ), (m.eids.map fun e => triArea m e * (t * a e)).sum = t * (m.eids.map fun e => triArea m e * a e).sum := fun t a => by
    rw [← List.sum_map_mul_left]; congr 1; exact List.map_congr_left fun e _ => by ring
  have hP : ∀ r < 5, D r ≤ 48 * R ^ 2 * G r := fun r hr => (hsum fun e _ => by linarith [sq_nonneg (disp m v r (m.tria e).n1 + disp m v r (m.tria e).n2 + disp m v r (m.tria e).n3)]).trans
    (held_values w hp hg hv hr (hc.held r hr))
  have e1 : dispSize m v = D 0 + D 1 + D 2 + D 3 + D 4 := by
    unfold dispSize
    rw [hD]
    simp only
    rw [← hadd, ← hadd, ← hadd, ← hadd]
    congr 1
    exact List.map_congr_left fun e _ => by simp only [sum_range_succ, range_zero, sum_empty]; ring
  have g01 : G 0 + G 1 ≤ 2 * X := by
    have k1 := korn_parallel w hp hg (hc.plane.parallel w hp hv (by norm_num) (by norm_num))
    have k2 : (m.eids.map fun e => triArea m e * (gradX m (tpoly m e) (disp m v 0) ^ 2 + gradY m (tpoly m e) (disp m v 1) ^ 2 + (gradY m (tpoly m e) (disp m v 0) + gradX m (tpoly m e) (disp m v 1)) ^ 2)).sum ≤
        strainSize m v := by
      refine hsum fun e _ => ?_
      rw [sumsq6]
      simp only [triEps, Matrix.cons_val_zero, Matrix.cons_val_one, Matrix.cons_val]
      linarith [sq_nonneg (gradX m (tpoly m e) (disp m v 3)), sq_nonneg (gradY m (tpoly m e) (disp m v 4)), sq_nonneg (gradY m (tpoly m e) (disp m v 3) + gradX m (tpoly m e) (disp m v 4))]
    have k3 : G 0 + G 1 ≤ (m.eids.map fun e => triArea m e * (gradX m (tpoly m e) (disp m v 0) ^ 2 + gradY m (tpoly m e) (disp m v 0) ^ 2 + gradX m (tpoly m e) (disp m v 1) ^ 2 + gradY m (tpoly m e) (disp m v 1) ^ 2)).sum := by
      rw [hG]
      simp only
      rw [← hadd]
      exact hsum fun e _ => by linarith
    linarith
  have g34 : G 3 + G 4 ≤ X := by
    have : G 3 + G 4 ≤ rotSize m v := by
      rw [hG]
      simp only
      rw [← hadd]
      unfold rotSize
      refine hsum fun e _ => ?_
      rw [Fin.sum_univ_four, Fin.sum_univ_two]
      simp only [rotGrad, Matrix.cons_val_zero, Matrix.cons_val_one, Matrix.cons_val]
      linarith [sq_nonneg (rotSum m e v 0), sq_nonneg (rotSum m e v 1)]
    linarith
  set η := 3 * s * h + litErr method with hη
  have g2 : G 2 ≤ 3 * gammaSize m method v + 48 * η ^ 2 * rotSize m v + 3 * (D 3 + D 4) := by
    have : ∀ e ∈ m.eids, gradX m (tpoly m e) (disp m v 2) ^ 2 + gradY m (tpoly m e) (disp m v 2) ^ 2 ≤ 3 * ∑ r, methodGamma m method e v r ^ 2 +
        48 * η ^ 2 * (∑ j, rotGrad m e v j ^ 2 + ∑ r, rotSum m e v r ^ 2) + 3 * ((disp m v 3 (m.tria e).n1 ^ 2 + disp m v 3 (m.tria e).n2 ^ 2 + disp m v 3 (m.tria e).n3 ^ 2) +
          (disp m v 4 (m.tria e).n1 ^ 2 + disp m v 4 (m.tria e).n2 ^ 2 + disp m v 4 (m.tria e).n3 ^ 2)) := by
      intro e he
      have c1 : IsCorner m e (m.tria e).n1 := Or.inl rfl
      have r1 := abs_sum_sq (rotGrad m e v)
      have r2 := abs_sum_sq (rotSum m e v)
      change rotAbs m e v ^ 2 ≤ _ at r1
      change rotSumAbs m e v ^ 2 ≤ _ at r2
      push_cast at r1 r2
      have n4 : 0 ≤ ∑ r, rotSum m e v r ^ 2 := Finset.sum_nonneg fun _ _ => sq_nonneg _
      have r3 : (rotAbs m e v + rotSumAbs m e v) ^ 2 ≤ 8 * (∑ j, rotGrad m e v j ^ 2 + ∑ r, rotSum m e v r ^ 2) := by
        nlinarith [sq_nonneg (rotAbs m e v - rotSumAbs m e v)]
      have r4 := mul_le_mul_of_nonneg_left r3 (sq_nonneg η)
      have three : ∀ γ d f : ℝ, |γ - (d + f)| ≤ η * (rotAbs m e v + rotSumAbs m e v) → d ^ 2 ≤ 3 * γ ^ 2 + 24 * η ^ 2 * (∑ j, rotGrad m e v j ^ 2 + ∑ r, rotSum m e v r ^ 2) + 3 * f ^ 2 := by
        intro γ d f t
        have t2 := pow_le_pow_left₀ (abs_nonneg _) t 2
        rw [sq_abs, mul_pow] at t2
        have t3 : d ^ 2 ≤ 3 * (γ ^ 2 + (γ - (d + f)) ^ 2 + f ^ 2) := by
          have three : ∀ a b c : ℝ, (a + b + c) ^ 2 ≤ 3 * (a ^ 2 + b ^ 2 + c ^ 2) := fun a b c => by nlinarith [sq_nonneg (a - b), sq_nonneg (a - c), sq_nonneg (b - c)]
          have := three γ (-(γ - (d + f))) (-f)
          rwa [show γ + -(γ - (d + f)) + -f = d by ring, neg_sq, neg_sq] at this
        linarith
      have l : linShear m e v (pt m (m.tria e).n1) = ![gradX m (tpoly m e) (disp m v 2) + disp m v 3 (m.tria e).n1, gradY m (tpoly m e) (disp m v 2) + disp m v 4 (m.tria e).n1] := by
        unfold linShear
        rw [lin_corner w hp hg he _ c1, lin_corner w hp hg he _ c1]
      have t0 := method_test w hp hg he hs hh method v (pt_mem_hull c1) 0
      have t1 := method_test w hp hg he hs hh method v (pt_mem_hull c1) 1
      rw [l] at t0 t1
      change |_ - (_ + _)| ≤ η * _ at t0
      change |_ - (_ + _)| ≤ η * _ at t1
      have u0 := three _ _ _ t0
      have u1 := three _ _ _ t1
      rw [Fin.sum_univ_two (f := fun r => methodGamma m method e v r ^ 2)]
      linarith [sq_nonneg (disp m v 3 (m.tria e).n2), sq_nonneg (disp m v 3 (m.tria e).n3), sq_nonneg (disp m v 4 (m.tria e).n2), sq_nonneg (disp m v 4 (m.tria e).n3)]
    refine (hsum this).trans (le_of_eq ?_)
    have e4 : (m.eids.map fun e => triArea m e * ((disp m v 3 (m.tria e).n1 ^ 2 + disp m v 3 (m.tria e).n2 ^ 2 + disp m v 3 (m.tria e).n3 ^ 2) +
        (disp m v 4 (m.tria e).n1 ^ 2 + disp m v 4 (m.tria e).n2 ^ 2 + disp m v 4 (m.tria e).n3 ^ 2))).sum = D 3 + D 4 := hadd _ _
    rw [hadd, hadd, hmul, hmul, hmul, e4]
    rfl
  have R0 : 0 ≤ 48 * R ^ 2 := by positivity
  have x34 : D 3 + D 4 ≤ 48 * R ^ 2 * X := by
    have := mul_le_mul_of_nonneg_left g34 R0
    linarith [hP 3 (by norm_num), hP 4 (by norm_num)]
  have x01 : D 0 + D 1 ≤ 48 * R ^ 2 * (2 * X) := by
    have := mul_le_mul_of_nonneg_left g01 R0
    linarith [hP 0 (by norm_num), hP 1 (by norm_num)]
  have x2 : D 2 ≤ 48 * R ^ 2 * ((3 + 48 * η ^ 2 + 144 * R ^ 2) * X) := by
    refine (hP 2 (by norm_num)).trans (mul_le_mul_of_nonneg_left ?_ R0)
    have : 48 * η ^ 2 * rotSize m v ≤ 48 * η ^ 2 * X := mul_le_mul_of_nonneg_left (by linarith) (by positivity)
    linarith
  rw [e1]
  linarith

end

end Meshless
