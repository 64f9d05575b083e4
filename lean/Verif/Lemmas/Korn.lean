import Verif.Spec.Converge
import Verif.Lemmas.Converge

/-! Inequalities for nodal values that vanish on the boundary: the derivatives are controlled by the strains (Korn) and the values by the derivatives
(Poincaré). -/

set_option autoImplicit false

namespace Meshless
open Spec Finset

/-- sign of a number other than zero -/
noncomputable def sg (x : ℝ) : ℝ := if 0 < x then 1 else -1

theorem sg_mul {x : ℝ} (h : x ≠ 0) : sg x * x = |x| := by
  unfold sg
  split_ifs with h0
  · rw [abs_of_pos h0, one_mul]
  · rw [abs_of_neg (lt_of_le_of_ne (not_lt.1 h0) h), neg_one_mul]

theorem sg_neg {x : ℝ} (h : x ≠ 0) : sg (-x) = -sg x := by
  unfold sg
  rcases lt_or_gt_of_ne h with h | h
  · rw [if_pos (by linarith), if_neg (by linarith)]; norm_num
  · rw [if_neg (by linarith), if_pos (by linarith)]

theorem sg_third {x : ℝ} : sg (x / 3) = sg x := by
  unfold sg
  by_cases h : 0 < x
  · rw [if_pos (by linarith), if_pos h]
  · rw [if_neg (by linarith), if_neg h]

theorem sg_opposite {x y : ℝ} (h : x * y < 0) : sg x + sg y = 0 := by
  unfold sg
  rcases mul_neg_iff.1 h with ⟨h1, h2⟩ | ⟨h1, h2⟩
  · rw [if_pos h1, if_neg (by linarith)]; norm_num
  · rw [if_neg (by linarith), if_pos h2]; norm_num

section
variable {m : Mesh}

theorem side_third (m : Mesh) (e : ℕ) : sarea m [[(m.tria e).n1], [(m.tria e).n2], corners m e] = sarea m (tpoly m e) / 3 ∧
    sarea m [[(m.tria e).n2], [(m.tria e).n3], corners m e] = sarea m (tpoly m e) / 3 ∧ sarea m [[(m.tria e).n3], [(m.tria e).n1], corners m e] = sarea m (tpoly m e) / 3 := by
  unfold tpoly
  simp only [sarea3, mean_single]
  simp only [mean, corners, List.map_cons, List.map_nil, List.sum_cons, List.sum_nil, List.length_cons, List.length_nil]
  push_cast
  refine ⟨?_, ?_, ?_⟩ <;> ring

theorem side_flux {c : ℕ → ℕ → ℝ} (hc : ∀ i j, c j i = -c i j) {e i j : ℕ} (h : sarea m [[i], [j], corners m e] ≠ 0) :
    sg (sarea m [[(sortPair i j).1], [(sortPair i j).2], corners m e]) * c (sortPair i j).1 (sortPair i j).2 = sg (sarea m [[i], [j], corners m e]) * c i j := by
  have sw : sarea m [[j], [i], corners m e] = -sarea m [[i], [j], corners m e] := by rw [sarea3, sarea3]; ring
  rcases sortPair_cases i j with ⟨h1, _⟩ | ⟨h1, _⟩ <;> rw [h1]
  rw [sw, sg_neg h, hc]
  ring

/-- a flux through the sides that is the same from both sides and zero on the boundary sums to zero -/
theorem flux_zero (w : WF m) (hp : Proper m) (hg : Planar m) {c : ℕ → ℕ → ℝ} (hc : ∀ i j, c j i = -c i j) (hb : ∀ k ∈ m.ekeys, (m.edge k).trias.length = 1 → c k.1 k.2 = 0) :
    (m.eids.map fun e => sg (sarea m (tpoly m e)) * (c (m.tria e).n1 (m.tria e).n2 + c (m.tria e).n2 (m.tria e).n3 + c (m.tria e).n3 (m.tria e).n1)).sum = 0 := by
  have h1 := sum_sideTrias2 m.tria (fun e k => sg (sarea m [[k.1], [k.2], corners m e]) * c k.1 k.2) w.ekeys_nodup (es := m.eids) (fun e he k hk => (w.mem_ekeys k).2 ⟨e, he, hk⟩)
  have h2 : (m.eids.map fun e => sg (sarea m (tpoly m e)) * (c (m.tria e).n1 (m.tria e).n2 + c (m.tria e).n2 (m.tria e).n3 + c (m.tria e).n3 (m.tria e).n1)) =
      m.eids.map fun e => ((m.tria e).edgeIds.map fun k => sg (sarea m [[k.1], [k.2], corners m e]) * c k.1 k.2).sum := by
    refine List.map_congr_left fun e he => ?_
    have h0 : sarea m (tpoly m e) / 3 ≠ 0 := div_ne_zero (hg.nondeg e he) (by norm_num)
    obtain ⟨a1, a2, a3⟩ := side_third m e
    simp only [Tria.edgeIds, List.map_cons, List.map_nil, List.sum_cons, List.sum_nil, add_zero]
    rw [side_flux hc (by rw [a1]; exact h0), side_flux hc (by rw [a2]; exact h0), side_flux hc (by rw [a3]; exact h0), a1, a2, a3, sg_third]
    ring
  rw [h2, ← h1]
  refine List.sum_eq_zero fun y hy => ?_
  obtain ⟨k, hk, rfl⟩ := List.mem_map.1 hy
  rw [← w.etrias k hk]
  rcases edge_shape w hp hk with ⟨t, o, htr, _⟩ | ⟨t1, t2, o1, o2, htr, _⟩
  · rw [hb k hk (by rw [htr]; rfl)]; simp
  · rw [htr]
    simp only [List.map_cons, List.map_nil, List.sum_cons, List.sum_nil, add_zero]
    rw [← add_mul, sg_opposite (hg.opposite k hk t1 t2 htr), zero_mul]

theorem tri_sg (hg : Planar m) {e : ℕ} (he : e ∈ m.eids) : triArea m e = sg (sarea m (tpoly m e)) * (((nx m (m.tria e).n2 - nx m (m.tria e).n1) * (ny m (m.tria e).n3 - ny m (m.tria e).n1)
    - (nx m (m.tria e).n3 - nx m (m.tria e).n1) * (ny m (m.tria e).n2 - ny m (m.tria e).n1)) / 2) := by
  have := sg_mul (hg.nondeg e he)
  unfold triArea
  rw [← this]
  unfold tpoly
  rw [sarea3]
  simp only [mean_single]

/-- the determinant of the derivatives of two nodal fields zero on the boundary has zero integral -/
theorem det_zero (w : WF m) (hp : Proper m) (hg : Planar m) {f g : ℕ → ℝ} (hf : ∀ k ∈ m.ekeys, (m.edge k).trias.length = 1 → f k.1 = 0 ∧ f k.2 = 0) :
    (m.eids.map fun e => triArea m e * (gradX m (tpoly m e) f * gradY m (tpoly m e) g - gradY m (tpoly m e) f * gradX m (tpoly m e) g)).sum = 0 := by
  have h := flux_zero w hp hg (c := fun i j => (f i * g j - f j * g i) / 2) (fun i j => by ring) fun k hk h1 => by
    obtain ⟨a, b⟩ := hf k hk h1
    rw [a, b]; ring
  rw [← h]
  congr 1
  refine List.map_congr_left fun e he => ?_
  obtain ⟨c, p, q, hA⟩ := aff_exists w hp hg he f
  obtain ⟨c', p', q', hA'⟩ := aff_exists w hp hg he g
  obtain ⟨e1, e2⟩ := tri_grad hg he hA
  obtain ⟨e3, e4⟩ := tri_grad hg he hA'
  rw [e1, e2, e3, e4, tri_sg hg he]
  rw [hA _ (Or.inl rfl), hA _ (Or.inr (Or.inl rfl)), hA _ (Or.inr (Or.inr rfl)), hA' _ (Or.inl rfl), hA' _ (Or.inr (Or.inl rfl)), hA' _ (Or.inr (Or.inr rfl))]
  ring

/-- Korn: squared derivatives of a pair of nodal fields zero on the boundary -/
theorem korn (w : WF m) (hp : Proper m) (hg : Planar m) {f g : ℕ → ℝ} (hf : ∀ k ∈ m.ekeys, (m.edge k).trias.length = 1 → f k.1 = 0 ∧ f k.2 = 0) :
    (m.eids.map fun e => triArea m e * (gradX m (tpoly m e) f ^ 2 + gradY m (tpoly m e) f ^ 2 + gradX m (tpoly m e) g ^ 2 + gradY m (tpoly m e) g ^ 2)).sum ≤
      2 * (m.eids.map fun e => triArea m e * (gradX m (tpoly m e) f ^ 2 + gradY m (tpoly m e) g ^ 2 + (gradY m (tpoly m e) f + gradX m (tpoly m e) g) ^ 2)).sum := by
  have h := det_zero w hp hg (g := g) hf
  have e1 : 2 * (m.eids.map fun e => triArea m e * (gradX m (tpoly m e) f ^ 2 + gradY m (tpoly m e) g ^ 2 + (gradY m (tpoly m e) f + gradX m (tpoly m e) g) ^ 2)).sum =
      2 * (m.eids.map fun e => triArea m e * (gradX m (tpoly m e) f ^ 2 + gradY m (tpoly m e) g ^ 2 + (gradY m (tpoly m e) f + gradX m (tpoly m e) g) ^ 2)).sum +
      2 * (m.eids.map fun e => triArea m e * (gradX m (tpoly m e) f * gradY m (tpoly m e) g - gradY m (tpoly m e) f * gradX m (tpoly m e) g)).sum := by rw [h]; ring
  rw [e1, ← List.sum_map_mul_left, ← List.sum_map_mul_left, ← List.sum_map_add]
  refine List.sum_le_sum fun e _ => ?_
  have hA : 0 ≤ triArea m e := abs_nonneg _
  generalize gradX m (tpoly m e) f = a
  generalize gradY m (tpoly m e) f = b
  generalize gradX m (tpoly m e) g = c
  generalize gradY m (tpoly m e) g = d
  have : a ^ 2 + b ^ 2 + c ^ 2 + d ^ 2 ≤ 2 * (a ^ 2 + d ^ 2 + (b + c) ^ 2) + 2 * (a * d - b * c) := by nlinarith [sq_nonneg (a + d), sq_nonneg (b + c)]
  have := mul_le_mul_of_nonneg_left this hA
  linarith

/-- `∫ (f^2 + 2 (x - x0) f f_x) = 0` for nodal fields zero on the boundary -/
theorem div_zero_sq (w : WF m) (hp : Proper m) (hg : Planar m) (x0 : ℝ) {f : ℕ → ℝ} (hf : ∀ k ∈ m.ekeys, (m.edge k).trias.length = 1 → f k.1 = 0 ∧ f k.2 = 0) :
    (m.eids.map fun e => triArea m e / 12 * (f (m.tria e).n1 ^ 2 + f (m.tria e).n2 ^ 2 + f (m.tria e).n3 ^ 2 + (f (m.tria e).n1 + f (m.tria e).n2 + f (m.tria e).n3) ^ 2 + 2 * gradX m (tpoly m e) f *
      ((nx m (m.tria e).n1 - x0) * f (m.tria e).n1 + (nx m (m.tria e).n2 - x0) * f (m.tria e).n2 + (nx m (m.tria e).n3 - x0) * f (m.tria e).n3 +
        ((nx m (m.tria e).n1 - x0) + (nx m (m.tria e).n2 - x0) + (nx m (m.tria e).n3 - x0)) * (f (m.tria e).n1 + f (m.tria e).n2 + f (m.tria e).n3)))).sum = 0 := by
  have h := flux_zero w hp hg (c := fun i j => (ny m j - ny m i) / 12 * ((nx m i - x0) * (3 * f i ^ 2 + 2 * f i * f j + f j ^ 2) + (nx m j - x0) * (f i ^ 2 + 2 * f i * f j + 3 * f j ^ 2)))
    (fun i j => by ring) fun k hk h1 => by
    obtain ⟨a, b⟩ := hf k hk h1
    rw [a, b]; ring
  rw [← h]
  congr 1
  refine List.map_congr_left fun e he => ?_
  obtain ⟨c, p, q, hA⟩ := aff_exists w hp hg he f
  obtain ⟨e1, e2⟩ := tri_grad hg he hA
  rw [e1, tri_sg hg he]
  rw [hA _ (Or.inl rfl), hA _ (Or.inr (Or.inl rfl)), hA _ (Or.inr (Or.inr rfl))]
  ring

/-- Poincaré: the values of nodal fields zero on the boundary against their derivatives -/
theorem poincare (w : WF m) (hp : Proper m) (hg : Planar m) {R : ℝ} (hR : Within m R) {f : ℕ → ℝ} (hf : ∀ k ∈ m.ekeys, (m.edge k).trias.length = 1 → f k.1 = 0 ∧ f k.2 = 0) :
    (m.eids.map fun e => triArea m e * (f (m.tria e).n1 ^ 2 + f (m.tria e).n2 ^ 2 + f (m.tria e).n3 ^ 2 + (f (m.tria e).n1 + f (m.tria e).n2 + f (m.tria e).n3) ^ 2)).sum ≤
      48 * R ^ 2 * (m.eids.map fun e => triArea m e * gradX m (tpoly m e) f ^ 2).sum := by
  obtain ⟨x0, hR⟩ := hR
  have h := div_zero_sq w hp hg x0 hf
  have e1 : 48 * R ^ 2 * (m.eids.map fun e => triArea m e * gradX m (tpoly m e) f ^ 2).sum = 48 * R ^ 2 * (m.eids.map fun e => triArea m e * gradX m (tpoly m e) f ^ 2).sum +
    24 * (m.eids.map fun e => triArea m e / 12 * (f (m.tria e).n1 ^ 2 + f (m.tria e).n2 ^ 2 + f (m.tria e).n3 ^ 2 + (f (m.tria e).n1 + f (m.tria e).n2 + f (m.tria e).n3) ^ 2 + 2 * gradX m (tpoly m e) f *
      ((nx m (m.tria e).n1 - x0) * f (m.tria e).n1 + (nx m (m.tria e).n2 - x0) * f (m.tria e).n2 + (nx m (m.tria e).n3 - x0) * f (m.tria e).n3 +
        ((nx m (m.tria e).n1 - x0) + (nx m (m.tria e).n2 - x0) + (nx m (m.tria e).n3 - x0)) * (f (m.tria e).n1 + f (m.tria e).n2 + f (m.tria e).n3)))).sum := by rw [h]; ring
  rw [e1, ← List.sum_map_mul_left, ← List.sum_map_mul_left, ← List.sum_map_add]
  refine List.sum_le_sum fun e he => ?_
  have hA : 0 ≤ triArea m e := abs_nonneg _
  have r1 := hR e he _ (Or.inl rfl)
  have r2 := hR e he _ (Or.inr (Or.inl rfl))
  have r3 := hR e he _ (Or.inr (Or.inr rfl))
  generalize gradX m (tpoly m e) f = g
  generalize nx m (m.tria e).n1 - x0 = x1 at *
  generalize nx m (m.tria e).n2 - x0 = x2 at *
  generalize nx m (m.tria e).n3 - x0 = x3 at *
  generalize f (m.tria e).n1 = f1
  generalize f (m.tria e).n2 = f2
  generalize f (m.tria e).n3 = f3
  have sq : ∀ x : ℝ, |x| ≤ R → x ^ 2 ≤ R ^ 2 := fun x hx => by rw [← sq_abs]; exact pow_le_pow_left₀ (abs_nonneg _) hx 2
  have y : ∀ x t : ℝ, -(2 * (g * (x * t))) ≤ t ^ 2 / 2 + 2 * (g ^ 2 * x ^ 2) := fun x t => by nlinarith [sq_nonneg (t + 2 * (g * x))]
  have b : ∀ x : ℝ, |x| ≤ R → g ^ 2 * x ^ 2 ≤ g ^ 2 * R ^ 2 := fun x hx => mul_le_mul_of_nonneg_left (sq x hx) (sq_nonneg g)
  have b3 : g ^ 2 * (x1 + x2 + x3) ^ 2 ≤ 9 * (g ^ 2 * R ^ 2) := by
    have : |x1 + x2 + x3| ≤ 3 * R := by rw [abs_le] at *; constructor <;> linarith [r1.1, r1.2, r2.1, r2.2, r3.1, r3.2]
    have := pow_le_pow_left₀ (abs_nonneg _) this 2
    rw [sq_abs] at this
    have := mul_le_mul_of_nonneg_left this (sq_nonneg g)
    linarith
  have main : f1 ^ 2 + f2 ^ 2 + f3 ^ 2 + (f1 + f2 + f3) ^ 2 ≤ 48 * (g ^ 2 * R ^ 2) + 2 * (f1 ^ 2 + f2 ^ 2 + f3 ^ 2 + (f1 + f2 + f3) ^ 2 + 2 * (g * (x1 * f1) + g * (x2 * f2) + g * (x3 * f3) + g * ((x1 + x2 + x3) * (f1 + f2 + f3)))) := by
    linarith [y x1 f1, y x2 f2, y x3 f3, y (x1 + x2 + x3) (f1 + f2 + f3), b x1 r1, b x2 r2, b x3 r3]
  have := mul_le_mul_of_nonneg_left main hA
  linarith

theorem rotSum_eq (e : ℕ) (v : ℕ → ℝ) (r : Fin 2) : rotSum m e v r = disp m v (3 + r.val) (m.tria e).n1 + disp m v (3 + r.val) (m.tria e).n2 + disp m v (3 + r.val) (m.tria e).n3 := by
  simp only [rotSum, corners, List.map_cons, List.map_nil, List.sum_cons, List.sum_nil]; ring

/-- rotations fixed along the boundary are controlled by the curvatures -/
theorem clamped_rotHeld (w : WF m) (hp : Proper m) (hg : Planar m) {R : ℝ} (hR : Within m R) {Sp : Set ℕ} (hc : RotClamped m Sp) : RotHeld m Sp (2 + 96 * R ^ 2) := by
  intro v hv
  have hz : ∀ r, r = 3 ∨ r = 4 → ∀ k ∈ m.ekeys, (m.edge k).trias.length = 1 → disp m v r k.1 = 0 ∧ disp m v r k.2 = 0 := by
    intro r hr k hk h1
    obtain ⟨t, ht⟩ : ∃ t, t ∈ (m.edge k).trias := List.exists_mem_of_ne_nil _ (by rintro h; rw [h] at h1; simp at h1)
    obtain ⟨ht, c1, c2⟩ := edge_tria w hp hk ht
    have one : ∀ i, i = k.1 ∨ i = k.2 → IsCorner m t i → disp m v r i = 0 := by
      intro i hi hci
      have hlt := List.idxOf_lt_length_iff.2 (corner_mem w hp.distinct ht hci)
      obtain ⟨s1, s2⟩ := hc k hk h1 i hi
      unfold disp
      rcases hr with rfl | rfl
      · exact hv _ (by omega) s1
      · exact hv _ (by omega) s2
    exact ⟨one _ (Or.inl rfl) c1, one _ (Or.inr rfl) c2⟩
  have k1 := korn w hp hg (f := disp m v 3) (g := disp m v 4) (hz 3 (Or.inl rfl))
  have p3 := poincare w hp hg hR (hz 3 (Or.inl rfl))
  have p4 := poincare w hp hg hR (hz 4 (Or.inr rfl))
  have hsum : ∀ {a b : ℕ → ℝ}, (∀ e, a e ≤ b e) → (m.eids.map fun e => triArea m e * a e).sum ≤ (m.eids.map fun e => triArea m e * b e).sum := fun h =>
    List.sum_le_sum fun e _ => mul_le_mul_of_nonneg_left (h e) (abs_nonneg _)
  have k2 : (m.eids.map fun e => triArea m e * (gradX m (tpoly m e) (disp m v 3) ^ 2 + gradY m (tpoly m e) (disp m v 4) ^ 2 + (gradY m (tpoly m e) (disp m v 3) + gradX m (tpoly m e) (disp m v 4)) ^ 2)).sum ≤
      strainSize m v := by
    refine hsum fun e => ?_
    rw [sumsq6]
    simp only [triEps, Matrix.cons_val_zero, Matrix.cons_val_one, Matrix.cons_val]
    linarith [sq_nonneg (gradX m (tpoly m e) (disp m v 0)), sq_nonneg (gradY m (tpoly m e) (disp m v 1)), sq_nonneg (gradY m (tpoly m e) (disp m v 0) + gradX m (tpoly m e) (disp m v 1))]
  have k3 : rotSize m v ≤ (m.eids.map fun e => triArea m e * (gradX m (tpoly m e) (disp m v 3) ^ 2 + gradY m (tpoly m e) (disp m v 3) ^ 2 + gradX m (tpoly m e) (disp m v 4) ^ 2 + gradY m (tpoly m e) (disp m v 4) ^ 2)).sum +
      ((m.eids.map fun e => triArea m e * (disp m v 3 (m.tria e).n1 ^ 2 + disp m v 3 (m.tria e).n2 ^ 2 + disp m v 3 (m.tria e).n3 ^ 2 + (disp m v 3 (m.tria e).n1 + disp m v 3 (m.tria e).n2 + disp m v 3 (m.tria e).n3) ^ 2)).sum +
      (m.eids.map fun e => triArea m e * (disp m v 4 (m.tria e).n1 ^ 2 + disp m v 4 (m.tria e).n2 ^ 2 + disp m v 4 (m.tria e).n3 ^ 2 + (disp m v 4 (m.tria e).n1 + disp m v 4 (m.tria e).n2 + disp m v 4 (m.tria e).n3) ^ 2)).sum) := by
    unfold rotSize
    rw [← List.sum_map_add, ← List.sum_map_add]
    refine List.sum_le_sum fun e _ => ?_
    rw [← mul_add, ← mul_add]
    refine mul_le_mul_of_nonneg_left ?_ (abs_nonneg _)
    rw [Fin.sum_univ_four, Fin.sum_univ_two, rotSum_eq, rotSum_eq]
    simp only [rotGrad, Matrix.cons_val_zero, Matrix.cons_val_one, Matrix.cons_val]
    change _ + ((disp m v 3 _ + disp m v 3 _ + disp m v 3 _) ^ 2 + (disp m v 4 _ + disp m v 4 _ + disp m v 4 _) ^ 2) ≤ _
    have := fun r i => sq_nonneg (disp m v r i)
    linarith [this 3 (m.tria e).n1, this 3 (m.tria e).n2, this 3 (m.tria e).n3, this 4 (m.tria e).n1, this 4 (m.tria e).n2, this 4 (m.tria e).n3]
  have k4 : (m.eids.map fun e => triArea m e * gradX m (tpoly m e) (disp m v 3) ^ 2).sum + (m.eids.map fun e => triArea m e * gradX m (tpoly m e) (disp m v 4) ^ 2).sum ≤
      (m.eids.map fun e => triArea m e * (gradX m (tpoly m e) (disp m v 3) ^ 2 + gradY m (tpoly m e) (disp m v 3) ^ 2 + gradX m (tpoly m e) (disp m v 4) ^ 2 + gradY m (tpoly m e) (disp m v 4) ^ 2)).sum := by
    rw [← List.sum_map_add]
    refine List.sum_le_sum fun e _ => ?_
    rw [← mul_add]
    exact mul_le_mul_of_nonneg_left (by linarith [sq_nonneg (gradY m (tpoly m e) (disp m v 3)), sq_nonneg (gradY m (tpoly m e) (disp m v 4))]) (abs_nonneg _)
  have k5 := mul_le_mul_of_nonneg_left (k4.trans (k1.trans (mul_le_mul_of_nonneg_left k2 (by norm_num)))) (by positivity : 0 ≤ 48 * R ^ 2)
  linarith

end

end Meshless
