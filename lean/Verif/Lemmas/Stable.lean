import Verif.Lemmas.Consist
import Verif.Props.Modes

/-! Recovery of the strains of a triangle from the smoothed strains of its sides: the strain along a side is the same in both triangles. -/

set_option autoImplicit false

namespace Meshless
open Spec Finset

/-- `t^T eps t` for a side with vector `(a, b)` -/
def along (a b : ℝ) (x y z : ℝ) : ℝ := a ^ 2 * x + b ^ 2 * y + a * b * z

theorem along_neg (a b x y z : ℝ) : along (-a) (-b) x y z = along a b x y z := by unfold along; ring

theorem along_le {a b l : ℝ} (ha : |a| ≤ l) (hb : |b| ≤ l) (x y z : ℝ) : |along a b x y z| ≤ l ^ 2 * (|x| + |y| + |z|) := by
  have hl := (abs_nonneg _).trans ha
  have pr : ∀ c d e : ℝ, |c| ≤ l → |d| ≤ l → |c * d * e| ≤ l ^ 2 * |e| := fun c d e hc hd => by
    rw [abs_mul, abs_mul, pow_two]
    exact mul_le_mul_of_nonneg_right (mul_le_mul hc hd (abs_nonneg _) hl) (abs_nonneg _)
  unfold along
  rw [pow_two a, pow_two b]
  have h1 := pr a a x ha ha
  have h2 := pr b b y hb hb
  have h3 := pr a b z ha hb
  rw [abs_le] at *
  constructor <;> linarith [h1.1, h1.2, h2.1, h2.2, h3.1, h3.2]

/-- the strains along the three sides determine the strain -/
theorem recover {x1 y1 x2 y2 e0 e1 e2 A l s n1 n2 n3 : ℝ} (hA : 0 < A) (hD : |x1 * y2 - x2 * y1| = 2 * A) (hx1 : |x1| ≤ l) (hy1 : |y1| ≤ l) (hx2 : |x2| ≤ l) (hy2 : |y2| ≤ l)
    (hs : l ^ 2 ≤ s * A) (h1 : |along x1 y1 e0 e1 e2| ≤ l ^ 2 * n1) (h2 : |along x2 y2 e0 e1 e2| ≤ l ^ 2 * n2) (h3 : |along (x1 + x2) (y1 + y2) e0 e1 e2| ≤ l ^ 2 * n3) :
    |e0| ≤ s ^ 2 * (n1 + n2 + n3) ∧ |e1| ≤ s ^ 2 * (n1 + n2 + n3) ∧ |e2| ≤ s ^ 2 * (n1 + n2 + n3) := by
  have hl := (abs_nonneg _).trans hx1
  set q1 := along x1 y1 e0 e1 e2 with hq1
  set q2 := along x2 y2 e0 e1 e2 with hq2
  set q3 := along (x1 + x2) (y1 + y2) e0 e1 e2 with hq3
  set N := n1 + n2 + n3 with hN
  have hsum : |q1| + |q2| + |q3| ≤ l ^ 2 * N := by rw [hN]; linarith
  have hN0 : 0 ≤ l ^ 2 * N := (by positivity : 0 ≤ |q1| + |q2| + |q3|).trans hsum
  have hD2 : (x1 * y2 - x2 * y1) ^ 2 = 4 * A ^ 2 := by rw [← sq_abs, hD]; ring
  have pr : ∀ c d q b : ℝ, |c| ≤ l → |d| ≤ l → |q| ≤ b → |c * d * q| ≤ l ^ 2 * b := fun c d q b hc hd hq => by
    rw [abs_mul, abs_mul, pow_two]
    exact mul_le_mul (mul_le_mul hc hd (abs_nonneg _) hl) hq (abs_nonneg _) (mul_nonneg hl hl)
  have hs2 : l ^ 2 * l ^ 2 ≤ s ^ 2 * A ^ 2 := by nlinarith [sq_nonneg l]
  have fin : ∀ e : ℝ, |4 * A ^ 2 * e| ≤ l ^ 2 * (4 * (l ^ 2 * N)) → |e| ≤ s ^ 2 * N := by
    intro e he
    rw [abs_mul, abs_of_pos (by positivity)] at he
    have hp : 0 < 4 * A ^ 2 := by positivity
    by_cases hl0 : l = 0
    · subst hl0
      exfalso
      have : x1 = 0 := abs_nonpos_iff.1 hx1
      have : y1 = 0 := abs_nonpos_iff.1 hy1
      subst_vars
      simp at hD
      linarith
    · have hlp : 0 < l ^ 2 := by positivity
      have hNn : 0 ≤ N := by
        by_contra hc
        push Not at hc
        nlinarith
      have : 4 * A ^ 2 * |e| ≤ 4 * A ^ 2 * (s ^ 2 * N) := by nlinarith [mul_le_mul_of_nonneg_right hs2 hNn]
      exact le_of_mul_le_mul_left this hp
  have hq : |q3 - q1 - q2| ≤ |q1| + |q2| + |q3| := by
    have := abs_sub (q3 - q1) q2
    have := abs_sub q3 q1
    linarith
  refine ⟨fin _ ?_, fin _ ?_, fin _ ?_⟩
  · have : 4 * A ^ 2 * e0 = y2 * y2 * q1 + y1 * y1 * q2 - y1 * y2 * (q3 - q1 - q2) := by
      rw [← hD2, hq1, hq2, hq3]; unfold along; ring
    rw [this]
    have a1 := pr y2 y2 q1 _ hy2 hy2 le_rfl
    have a2 := pr y1 y1 q2 _ hy1 hy1 le_rfl
    have a3 := pr y1 y2 (q3 - q1 - q2) _ hy1 hy2 hq
    have a4 := abs_sub (y2 * y2 * q1 + y1 * y1 * q2) (y1 * y2 * (q3 - q1 - q2))
    have a5 := abs_add_le (y2 * y2 * q1) (y1 * y1 * q2)
    have : l ^ 2 * (|q1| + |q2| + |q3|) ≤ l ^ 2 * (l ^ 2 * N) := mul_le_mul_of_nonneg_left hsum (by positivity)
    nlinarith [mul_nonneg (sq_nonneg l) (abs_nonneg q3), mul_nonneg (sq_nonneg l) hN0]
  · have : 4 * A ^ 2 * e1 = x2 * x2 * q1 + x1 * x1 * q2 - x1 * x2 * (q3 - q1 - q2) := by
      rw [← hD2, hq1, hq2, hq3]; unfold along; ring
    rw [this]
    have a1 := pr x2 x2 q1 _ hx2 hx2 le_rfl
    have a2 := pr x1 x1 q2 _ hx1 hx1 le_rfl
    have a3 := pr x1 x2 (q3 - q1 - q2) _ hx1 hx2 hq
    have a4 := abs_sub (x2 * x2 * q1 + x1 * x1 * q2) (x1 * x2 * (q3 - q1 - q2))
    have a5 := abs_add_le (x2 * x2 * q1) (x1 * x1 * q2)
    have : l ^ 2 * (|q1| + |q2| + |q3|) ≤ l ^ 2 * (l ^ 2 * N) := mul_le_mul_of_nonneg_left hsum (by positivity)
    nlinarith [mul_nonneg (sq_nonneg l) (abs_nonneg q3), mul_nonneg (sq_nonneg l) hN0]
  · have : 4 * A ^ 2 * e2 = -2 * (x2 * y2 * q1) - 2 * (x1 * y1 * q2) + x1 * y2 * (q3 - q1 - q2) + x2 * y1 * (q3 - q1 - q2) := by
      rw [← hD2, hq1, hq2, hq3]; unfold along; ring
    rw [this]
    have a1 := pr x2 y2 q1 _ hx2 hy2 le_rfl
    have a2 := pr x1 y1 q2 _ hx1 hy1 le_rfl
    have a3 := pr x1 y2 (q3 - q1 - q2) _ hx1 hy2 hq
    have a4 := pr x2 y1 (q3 - q1 - q2) _ hx2 hy1 hq
    have : l ^ 2 * (|q1| + |q2| + |q3|) ≤ l ^ 2 * (l ^ 2 * N) := mul_le_mul_of_nonneg_left hsum (by positivity)
    have b3 := mul_nonneg (sq_nonneg l) (abs_nonneg q3)
    rw [abs_le] at *
    constructor <;> linarith [a1.1, a1.2, a2.1, a2.2, a3.1, a3.2, a4.1, a4.2]

section
variable {m : Mesh} {k : Key} {t : ℕ}

/-- the strain of a triangle along one of its sides is given by the displacements of the two ends -/
theorem along_tri (w : WF m) (hp : Proper m) (hg : Planar m) (ht : t ∈ m.eids) {i j : ℕ} (hi : IsCorner m t i) (hj : IsCorner m t j) (f g : ℕ → ℝ) :
    along (nx m j - nx m i) (ny m j - ny m i) (gradX m (tpoly m t) f) (gradY m (tpoly m t) g) (gradY m (tpoly m t) f + gradX m (tpoly m t) g) =
      (nx m j - nx m i) * (f j - f i) + (ny m j - ny m i) * (g j - g i) := by
  obtain ⟨c, p, q, hf⟩ := aff_exists w hp hg ht f
  obtain ⟨c', p', q', hg'⟩ := aff_exists w hp hg ht g
  obtain ⟨e1, e2⟩ := tri_grad hg ht hf
  obtain ⟨e3, e4⟩ := tri_grad hg ht hg'
  rw [e1, e2, e3, e4, hf i hi, hf j hj, hg' i hi, hg' j hj]
  unfold along
  ring

/-- the same holds for the smoothed strain of the edge -/
theorem along_dom (w : WF m) (hp : Proper m) (hg : Planar m) (hk : k ∈ m.ekeys) (f g : ℕ → ℝ) :
    along (nx m k.2 - nx m k.1) (ny m k.2 - ny m k.1) (gradX m (dom m k) f) (gradY m (dom m k) g) (gradY m (dom m k) f + gradX m (dom m k) g) =
      (nx m k.2 - nx m k.1) * (f k.2 - f k.1) + (ny m k.2 - ny m k.1) * (g k.2 - g k.1) := by
  have hA : 0 < ((m.edge k).trias.map (triArea m)).sum := by
    apply List.sum_pos
    · intro x hx
      obtain ⟨t, ht, rfl⟩ := List.mem_map.1 hx
      exact triArea_pos hg (edge_tria w hp hk ht).1
    · simpa using trias_ne w hp hk
  obtain ⟨f1, f2⟩ := grad_avg w hp hg hk f
  obtain ⟨g1, g2⟩ := grad_avg w hp hg hk g
  apply mul_left_cancel₀ hA.ne'
  have e : ((m.edge k).trias.map (triArea m)).sum * along (nx m k.2 - nx m k.1) (ny m k.2 - ny m k.1) (gradX m (dom m k) f) (gradY m (dom m k) g) (gradY m (dom m k) f + gradX m (dom m k) g) =
      along (nx m k.2 - nx m k.1) (ny m k.2 - ny m k.1) ((((m.edge k).trias.map (triArea m)).sum) * gradX m (dom m k) f) ((((m.edge k).trias.map (triArea m)).sum) * gradY m (dom m k) g)
        ((((m.edge k).trias.map (triArea m)).sum) * gradY m (dom m k) f + (((m.edge k).trias.map (triArea m)).sum) * gradX m (dom m k) g) := by unfold along; ring
  rw [e, f1, f2, g1, g2]
  have h := fun t (ht : t ∈ (m.edge k).trias) => along_tri w hp hg (edge_tria w hp hk ht).1 (edge_tria w hp hk ht).2.1 (edge_tria w hp hk ht).2.2 f g
  generalize (m.edge k).trias = ts at h
  clear e f1 f2 g1 g2 hA
  induction ts with
  | nil => simp [along]
  | cons t ts ih =>
    have h1 := h t (by simp)
    have h2 := ih fun t ht => h t (by simp [ht])
    simp only [List.map_cons, List.sum_cons] at h2 ⊢
    unfold along at h1 h2 ⊢
    linear_combination triArea m t * h1 + h2

theorem sortPair_along (m : Mesh) (a b : ℕ) (x y z : ℝ) : along (nx m (sortPair a b).2 - nx m (sortPair a b).1) (ny m (sortPair a b).2 - ny m (sortPair a b).1) x y z =
    along (nx m b - nx m a) (ny m b - ny m a) x y z := by
  rcases sortPair_cases a b with ⟨e, _⟩ | ⟨e, _⟩ <;> rw [e]
  rw [← along_neg]; congr 1 <;> ring

theorem side_recover (w : WF m) (hp : Proper m) (hg : Planar m) {s : ℝ} (hs : Shape m s) (ht : t ∈ m.eids) (f g : ℕ → ℝ) :
    let N := ((m.tria t).edgeIds.map fun k => |gradX m (dom m k) f| + |gradY m (dom m k) g| + |gradY m (dom m k) f + gradX m (dom m k) g|).sum
    |gradX m (tpoly m t) f| ≤ s ^ 2 * N ∧ |gradY m (tpoly m t) g| ≤ s ^ 2 * N ∧ |gradY m (tpoly m t) f + gradX m (tpoly m t) g| ≤ s ^ 2 * N := by
  intro N
  have key : ∀ a b, IsCorner m t a → IsCorner m t b → sortPair a b ∈ (m.tria t).edgeIds →
      |along (nx m b - nx m a) (ny m b - ny m a) (gradX m (tpoly m t) f) (gradY m (tpoly m t) g) (gradY m (tpoly m t) f + gradX m (tpoly m t) g)| ≤
        charLen m false t ^ 2 * (|gradX m (dom m (sortPair a b)) f| + |gradY m (dom m (sortPair a b)) g| + |gradY m (dom m (sortPair a b)) f + gradX m (dom m (sortPair a b)) g|) := by
    intro a b ha hb hk
    obtain ⟨hk, ht'⟩ := side_trias w ht hk
    obtain ⟨_, c1, c2⟩ := edge_tria w hp hk ht'
    have h1 := along_tri w hp hg ht c1 c2 f g
    rw [← along_dom w hp hg hk f g, sortPair_along, sortPair_along] at h1
    rw [h1]
    obtain ⟨dx, dy⟩ := coord_le (corner_dist hb ha)
    exact along_le dx dy _ _ _
  have c1 : IsCorner m t (m.tria t).n1 := Or.inl rfl
  have c2 : IsCorner m t (m.tria t).n2 := Or.inr (Or.inl rfl)
  have c3 : IsCorner m t (m.tria t).n3 := Or.inr (Or.inr rfl)
  have k1 := key _ _ c1 c2 (by simp [Tria.edgeIds])
  have k2 := key _ _ c2 c3 (by simp [Tria.edgeIds])
  have k3 := key _ _ c3 c1 (by simp [Tria.edgeIds])
  rw [← along_neg] at k3
  obtain ⟨dx1, dy1⟩ := coord_le (corner_dist c2 c1)
  obtain ⟨dx2, dy2⟩ := coord_le (corner_dist c3 c2)
  have hN : N = (|gradX m (dom m (sortPair (m.tria t).n1 (m.tria t).n2)) f| + |gradY m (dom m (sortPair (m.tria t).n1 (m.tria t).n2)) g| + |gradY m (dom m (sortPair (m.tria t).n1 (m.tria t).n2)) f + gradX m (dom m (sortPair (m.tria t).n1 (m.tria t).n2)) g|)
      + (|gradX m (dom m (sortPair (m.tria t).n2 (m.tria t).n3)) f| + |gradY m (dom m (sortPair (m.tria t).n2 (m.tria t).n3)) g| + |gradY m (dom m (sortPair (m.tria t).n2 (m.tria t).n3)) f + gradX m (dom m (sortPair (m.tria t).n2 (m.tria t).n3)) g|)
      + (|gradX m (dom m (sortPair (m.tria t).n3 (m.tria t).n1)) f| + |gradY m (dom m (sortPair (m.tria t).n3 (m.tria t).n1)) g| + |gradY m (dom m (sortPair (m.tria t).n3 (m.tria t).n1)) f + gradX m (dom m (sortPair (m.tria t).n3 (m.tria t).n1)) g|) := by
    simp only [N, Tria.edgeIds, List.map_cons, List.map_nil, List.sum_cons, List.sum_nil]; ring
  rw [hN]
  refine recover (triArea_pos hg ht) (A := triArea m t) (l := charLen m false t) ?_ dx1 dy1 dx2 dy2 (hs t ht) k1 k2 ?_
  · have : triArea m t = |sarea m (tpoly m t)| := rfl
    rw [this]
    unfold tpoly
    rw [sarea3]
    simp only [mean_single, pt]
    rw [← abs_two, ← abs_mul, abs_two]
    congr 1
    ring
  · convert k3 using 2
    simp only [pt]
    congr 1 <;> ring

end

end Meshless
