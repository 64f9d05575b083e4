import Verif.Lemmas.Cst
import Verif.Lemmas.Volume
import Verif.Spec.Consist
import Mathlib.Analysis.Calculus.MeanValue
import Mathlib.Analysis.Convex.Topology

/-! Interpolation error of linear triangles and of the smoothed strains. -/

set_option autoImplicit false

namespace Meshless
open Spec Finset MeasureTheory

theorem pt_mem_hull {m : Mesh} {e i : ℕ} (hi : IsCorner m e i) : pt m i ∈ hull m e := by
  apply subset_convexHull
  rcases hi with rfl | rfl | rfl <;> simp

theorem sep_le_dist2 (m : Mesh) (i j : ℕ) : dist (pt m i) (pt m j) ≤ dist2 m i j := by
  rw [Prod.dist_eq]
  refine max_le ?_ ?_
  · rw [Real.dist_eq]
    apply Real.le_sqrt_of_sq_le
    rw [sq_abs]
    change (nx m i - nx m j) ^ 2 ≤ _
    nlinarith [sq_nonneg (ny m i - ny m j)]
  · rw [Real.dist_eq]
    apply Real.le_sqrt_of_sq_le
    rw [sq_abs]
    change (ny m i - ny m j) ^ 2 ≤ _
    nlinarith [sq_nonneg (nx m i - nx m j)]

theorem corner_dist {m : Mesh} {e i j : ℕ} (hi : IsCorner m e i) (hj : IsCorner m e j) : dist (pt m i) (pt m j) ≤ charLen m false e := by
  have h12 := sep_le_dist2 m (m.tria e).n1 (m.tria e).n2
  have h23 := sep_le_dist2 m (m.tria e).n2 (m.tria e).n3
  have h31 := sep_le_dist2 m (m.tria e).n3 (m.tria e).n1
  have e1 : dist2 m (m.tria e).n1 (m.tria e).n2 ≤ charLen m false e := (le_max_left _ _).trans (le_max_left _ _)
  have e2 : dist2 m (m.tria e).n2 (m.tria e).n3 ≤ charLen m false e := (le_max_right _ _).trans (le_max_left _ _)
  have e3 : dist2 m (m.tria e).n3 (m.tria e).n1 ≤ charLen m false e := le_max_right _ _
  have h0 : 0 ≤ charLen m false e := (Real.sqrt_nonneg _).trans e1
  rcases hi with rfl | rfl | rfl <;> rcases hj with rfl | rfl | rfl
  · rw [dist_self]; exact h0
  · exact h12.trans e1
  · rw [dist_comm]; exact h31.trans e3
  · rw [dist_comm]; exact h12.trans e1
  · rw [dist_self]; exact h0
  · exact h23.trans e2
  · exact h31.trans e3
  · rw [dist_comm]; exact h23.trans e2
  · rw [dist_self]; exact h0

theorem charLen_nonneg (m : Mesh) (e : ℕ) : 0 ≤ charLen m false e := (Real.sqrt_nonneg _).trans (le_max_right _ _)

theorem hull_dist {m : Mesh} {e : ℕ} {x y : ℝ × ℝ} (hx : x ∈ hull m e) (hy : y ∈ hull m e) : dist x y ≤ charLen m false e := by
  have h1 : ∀ i, IsCorner m e i → ∀ y ∈ hull m e, dist y (pt m i) ≤ charLen m false e := by
    intro i hi y hy
    have : hull m e ⊆ Metric.closedBall (pt m i) (charLen m false e) := by
      refine convexHull_min ?_ (convex_closedBall _ _)
      rintro z (rfl | rfl | rfl) <;> rw [Metric.mem_closedBall]
      · exact corner_dist (Or.inl rfl) hi
      · exact corner_dist (Or.inr (Or.inl rfl)) hi
      · exact corner_dist (Or.inr (Or.inr rfl)) hi
    exact this hy
  have : hull m e ⊆ Metric.closedBall y (charLen m false e) := by
    refine convexHull_min ?_ (convex_closedBall _ _)
    rintro z (rfl | rfl | rfl) <;> rw [Metric.mem_closedBall, dist_comm]
    · exact h1 _ (Or.inl rfl) y hy
    · exact h1 _ (Or.inr (Or.inl rfl)) y hy
    · exact h1 _ (Or.inr (Or.inr rfl)) y hy
  exact this hx

/-- one field with its derivatives on one triangle -/
structure Smooth1 (m : Mesh) (e : ℕ) (f fx fy : ℝ × ℝ → ℝ) (M : ℝ) : Prop where
  deriv : ∀ x ∈ hull m e, HasFDerivWithinAt f (fx x • ContinuousLinearMap.fst ℝ ℝ ℝ + fy x • ContinuousLinearMap.snd ℝ ℝ ℝ) (hull m e) x
  lip : ∀ x ∈ hull m e, ∀ y ∈ hull m e, |fx x - fx y| ≤ M * dist x y ∧ |fy x - fy y| ≤ M * dist x y

theorem taylor {m : Mesh} {e : ℕ} {f fx fy : ℝ × ℝ → ℝ} {M : ℝ} (hM : 0 ≤ M) (hf : Smooth1 m e f fx fy M) {a b : ℝ × ℝ} (ha : a ∈ hull m e) (hb : b ∈ hull m e) :
    |f b - f a - (fx a * (b.1 - a.1) + fy a * (b.2 - a.2))| ≤ 2 * M * charLen m false e ^ 2 := by
  have hc := Convex.norm_image_sub_le_of_norm_hasFDerivWithin_le' (f := f) (s := hull m e) (x := a) (y := b) (C := 2 * M * charLen m false e)
    (φ := fx a • ContinuousLinearMap.fst ℝ ℝ ℝ + fy a • ContinuousLinearMap.snd ℝ ℝ ℝ) hf.deriv (fun x hx => by
      have e : (fx x • ContinuousLinearMap.fst ℝ ℝ ℝ + fy x • ContinuousLinearMap.snd ℝ ℝ ℝ) - (fx a • ContinuousLinearMap.fst ℝ ℝ ℝ + fy a • ContinuousLinearMap.snd ℝ ℝ ℝ) =
        (fx x - fx a) • ContinuousLinearMap.fst ℝ ℝ ℝ + (fy x - fy a) • ContinuousLinearMap.snd ℝ ℝ ℝ := by
          ext <;> simp
      rw [e]
      obtain ⟨h1, h2⟩ := hf.lip x hx a ha
      have hd := mul_le_mul_of_nonneg_left (hull_dist hx ha) hM
      have n1 : ‖(fx x - fx a) • ContinuousLinearMap.fst ℝ ℝ ℝ‖ ≤ |fx x - fx a| := by
        rw [norm_smul, Real.norm_eq_abs]
        exact mul_le_of_le_one_right (abs_nonneg _) (ContinuousLinearMap.opNorm_le_bound _ zero_le_one fun z => by rw [one_mul]; exact norm_fst_le z)
      have n2 : ‖(fy x - fy a) • ContinuousLinearMap.snd ℝ ℝ ℝ‖ ≤ |fy x - fy a| := by
        rw [norm_smul, Real.norm_eq_abs]
        exact mul_le_of_le_one_right (abs_nonneg _) (ContinuousLinearMap.opNorm_le_bound _ zero_le_one fun z => by rw [one_mul]; exact norm_snd_le z)
      linarith [norm_add_le ((fx x - fx a) • ContinuousLinearMap.fst ℝ ℝ ℝ) ((fy x - fy a) • ContinuousLinearMap.snd ℝ ℝ ℝ)])
    (convex_convexHull ℝ _) ha hb
  have hd : ‖b - a‖ ≤ charLen m false e := by rw [← dist_eq_norm]; exact hull_dist hb ha
  have h0 : 0 ≤ 2 * M * charLen m false e := mul_nonneg (by linarith) (charLen_nonneg m e)
  have := hc.trans (mul_le_mul_of_nonneg_left hd h0)
  rw [Real.norm_eq_abs] at this
  simp only [_root_.add_apply, _root_.smul_apply, ContinuousLinearMap.coe_fst', ContinuousLinearMap.coe_snd', Prod.fst_sub, Prod.snd_sub, smul_eq_mul] at this
  calc _ ≤ _ := this
    _ = _ := by ring

theorem solve_small {p q x1 y1 x2 y2 r1 r2 A l ρ : ℝ} (h1 : p * x1 + q * y1 = r1) (h2 : p * x2 + q * y2 = r2) (hA : 0 < A) (hD : |x1 * y2 - x2 * y1| = 2 * A)
    (hx1 : |x1| ≤ l) (hy1 : |y1| ≤ l) (hx2 : |x2| ≤ l) (hy2 : |y2| ≤ l) (hr1 : |r1| ≤ ρ) (hr2 : |r2| ≤ ρ) : |p| ≤ ρ * l / A ∧ |q| ≤ ρ * l / A := by
  have hρ : 0 ≤ ρ := (abs_nonneg _).trans hr1
  have b : ∀ r s : ℝ, |r| ≤ ρ → |s| ≤ l → |r * s| ≤ ρ * l := fun r s hr hs => by
    rw [abs_mul]; exact mul_le_mul hr hs (abs_nonneg _) hρ
  constructor
  · have e : p * (x1 * y2 - x2 * y1) = r1 * y2 - r2 * y1 := by rw [← h1, ← h2]; ring
    have : |p| * (2 * A) ≤ 2 * (ρ * l) := by
      rw [← hD, ← abs_mul, e]
      have := abs_sub (r1 * y2) (r2 * y1)
      linarith [b r1 y2 hr1 hy2, b r2 y1 hr2 hy1]
    rw [le_div_iff₀ hA]; linarith
  · have e : q * (x1 * y2 - x2 * y1) = r2 * x1 - r1 * x2 := by rw [← h1, ← h2]; ring
    have : |q| * (2 * A) ≤ 2 * (ρ * l) := by
      rw [← hD, ← abs_mul, e]
      have := abs_sub (r2 * x1) (r1 * x2)
      linarith [b r2 x1 hr2 hx1, b r1 x2 hr1 hx2]
    rw [le_div_iff₀ hA]; linarith

theorem coord_le {a b : ℝ × ℝ} {l : ℝ} (h : dist a b ≤ l) : |a.1 - b.1| ≤ l ∧ |a.2 - b.2| ≤ l := by
  rw [Prod.dist_eq, Real.dist_eq, Real.dist_eq] at h
  exact ⟨(le_max_left _ _).trans h, (le_max_right _ _).trans h⟩

/-- gradient of the linear interpolation against the derivatives at a corner -/
theorem tri_error {m : Mesh} (w : WF m) (hp : Proper m) (hg : Planar m) {e : ℕ} (he : e ∈ m.eids) {s : ℝ} (hs : charLen m false e ^ 2 ≤ s * triArea m e)
    {f fx fy : ℝ × ℝ → ℝ} {M : ℝ} (hM : 0 ≤ M) (hf : Smooth1 m e f fx fy M) {g : ℕ → ℝ} (hgf : ∀ i, IsCorner m e i → g i = f (pt m i)) {a : ℕ} (ha : IsCorner m e a) :
    |gradX m (tpoly m e) g - fx (pt m a)| ≤ 2 * M * s * charLen m false e ∧ |gradY m (tpoly m e) g - fy (pt m a)| ≤ 2 * M * s * charLen m false e := by
  obtain ⟨c, p, q, haff⟩ := aff_exists w hp hg he g
  obtain ⟨e1, e2⟩ := tri_grad hg he haff
  rw [e1, e2]
  have hA := triArea_pos hg he
  have hl := charLen_nonneg m e
  have key : ∀ b c', IsCorner m e b → IsCorner m e c' → |(nx m b - nx m a) * (ny m c' - ny m a) - (nx m c' - nx m a) * (ny m b - ny m a)| = 2 * triArea m e →
      |p - fx (pt m a)| ≤ 2 * M * charLen m false e ^ 2 * charLen m false e / triArea m e ∧
      |q - fy (pt m a)| ≤ 2 * M * charLen m false e ^ 2 * charLen m false e / triArea m e := by
    intro b c' hb hc' hD
    have tb := taylor hM hf (pt_mem_hull ha) (pt_mem_hull hb)
    have tc := taylor hM hf (pt_mem_hull ha) (pt_mem_hull hc')
    rw [← hgf a ha, ← hgf b hb, haff a ha, haff b hb] at tb
    rw [← hgf a ha, ← hgf c' hc', haff a ha, haff c' hc'] at tc
    have db := coord_le (corner_dist hb ha)
    have dc := coord_le (corner_dist hc' ha)
    refine solve_small (r1 := (p - fx (pt m a)) * (nx m b - nx m a) + (q - fy (pt m a)) * (ny m b - ny m a))
      (r2 := (p - fx (pt m a)) * (nx m c' - nx m a) + (q - fy (pt m a)) * (ny m c' - ny m a)) rfl rfl hA hD db.1 db.2 dc.1 dc.2 ?_ ?_
    · convert tb using 2
      simp only [pt]; ring
    · convert tc using 2
      simp only [pt]; ring
  have hA2 : ∀ D, (D = 2 * sarea m [[(m.tria e).n1], [(m.tria e).n2], [(m.tria e).n3]]) → |D| = 2 * triArea m e := by
    rintro D rfl
    rw [abs_mul, abs_of_pos (by norm_num : (0:ℝ) < 2)]; rfl
  have hk : |p - fx (pt m a)| ≤ 2 * M * charLen m false e ^ 2 * charLen m false e / triArea m e ∧
      |q - fy (pt m a)| ≤ 2 * M * charLen m false e ^ 2 * charLen m false e / triArea m e := by
    rcases ha with rfl | rfl | rfl
    · refine key _ _ (Or.inr (Or.inl rfl)) (Or.inr (Or.inr rfl)) (hA2 _ ?_)
      rw [sarea3]; simp only [mean_single]; ring
    · refine key _ _ (Or.inr (Or.inr rfl)) (Or.inl rfl) (hA2 _ ?_)
      rw [sarea3]; simp only [mean_single]; ring
    · refine key _ _ (Or.inl rfl) (Or.inr (Or.inl rfl)) (hA2 _ ?_)
      rw [sarea3]; simp only [mean_single]; ring
  have hb : 2 * M * charLen m false e ^ 2 * charLen m false e / triArea m e ≤ 2 * M * s * charLen m false e := by
    rw [div_le_iff₀ hA]
    have := mul_le_mul_of_nonneg_left hs (mul_nonneg (mul_nonneg (by norm_num : (0:ℝ) ≤ 2) hM) hl)
    linarith
  exact ⟨hk.1.trans hb, hk.2.trans hb⟩

theorem weighted_near {α : Type} (A : α → ℝ) (g : α → ℝ) {ts : List α} (hA : ∀ t ∈ ts, 0 < A t) (h0 : ts ≠ []) {G c η : ℝ}
    (hG : (ts.map A).sum * G = (ts.map fun t => A t * g t).sum) (hc : ∀ t ∈ ts, |g t - c| ≤ η) : |G - c| ≤ η := by
  have hs : 0 < (ts.map A).sum := by
    apply List.sum_pos
    · intro x hx
      obtain ⟨t, ht, rfl⟩ := List.mem_map.1 hx
      exact hA t ht
    · simpa using h0
  have key : ∀ l : List α, (∀ t ∈ l, 0 < A t) → (∀ t ∈ l, |g t - c| ≤ η) → |(l.map fun t => A t * g t).sum - (l.map A).sum * c| ≤ (l.map A).sum * η := by
    intro l
    induction l with
    | nil => intro _ _; simp
    | cons t l ih =>
      intro h1 h2
      have a := ih (fun t ht => h1 t (List.mem_cons_of_mem _ ht)) (fun t ht => h2 t (List.mem_cons_of_mem _ ht))
      have b := mul_le_mul_of_nonneg_left (h2 t List.mem_cons_self) (h1 t List.mem_cons_self).le
      simp only [List.map_cons, List.sum_cons]
      have e : A t * g t + (l.map fun t => A t * g t).sum - (A t + (l.map A).sum) * c =
        A t * (g t - c) + ((l.map fun t => A t * g t).sum - (l.map A).sum * c) := by ring
      rw [e]
      refine (abs_add_le _ _).trans ?_
      rw [abs_mul, abs_of_pos (h1 t List.mem_cons_self)]
      linarith
  have := key ts hA hc
  rw [← hG, ← mul_sub, abs_mul, abs_of_pos hs] at this
  exact le_of_mul_le_mul_left this hs

/-- the ends of an edge are corners of its triangles -/
theorem edge_tria {m : Mesh} (w : WF m) (hp : Proper m) {k : Key} (hk : k ∈ m.ekeys) {t : ℕ} (ht : t ∈ (m.edge k).trias) :
    t ∈ m.eids ∧ IsCorner m t k.1 ∧ IsCorner m t k.2 := by
  rcases edge_shape w hp hk with ⟨t', o, htr, hs, _⟩ | ⟨t1, t2, o1, o2, htr, hs1, hs2, _, _, _, _⟩ <;> rw [htr] at ht <;>
    simp only [List.mem_cons, List.not_mem_nil, or_false] at ht
  · subst ht
    exact ⟨hs.mem, (hs.corner_iff _).2 (Or.inl rfl), (hs.corner_iff _).2 (Or.inr (Or.inl rfl))⟩
  · rcases ht with rfl | rfl
    · exact ⟨hs1.mem, (hs1.corner_iff _).2 (Or.inl rfl), (hs1.corner_iff _).2 (Or.inr (Or.inl rfl))⟩
    · exact ⟨hs2.mem, (hs2.corner_iff _).2 (Or.inl rfl), (hs2.corner_iff _).2 (Or.inr (Or.inl rfl))⟩

theorem trias_ne {m : Mesh} (w : WF m) (hp : Proper m) {k : Key} (hk : k ∈ m.ekeys) : (m.edge k).trias ≠ [] := by
  rcases edge_shape w hp hk with ⟨t', o, htr, hs, _⟩ | ⟨t1, t2, o1, o2, htr, hs1, hs2, _, _, _, _⟩ <;> rw [htr] <;> simp

theorem shape_nonneg {m : Mesh} (hg : Planar m) {s : ℝ} (hs : Shape m s) {e : ℕ} (he : e ∈ m.eids) : 0 ≤ s := by
  have h := (sq_nonneg _).trans (hs e he)
  by_contra hc
  push Not at hc
  nlinarith [triArea_pos hg he]

/-- smoothed gradient against the derivatives at any point of the edge's triangles -/
theorem dom_error {m : Mesh} (w : WF m) (hp : Proper m) (hg : Planar m) {s h : ℝ} (hs : Shape m s) (hh : Size m h) {f fx fy : ℝ × ℝ → ℝ} {M : ℝ} (hM : 0 ≤ M)
    (hf : ∀ e ∈ m.eids, Smooth1 m e f fx fy M) {g : ℕ → ℝ} (hgf : ∀ i ∈ m.nids, g i = f (pt m i)) {k : Key} (hk : k ∈ m.ekeys) {t : ℕ} (ht : t ∈ (m.edge k).trias)
    {x : ℝ × ℝ} (hx : x ∈ hull m t) :
    |gradX m (dom m k) g - fx x| ≤ (2 * s + 1) * M * h ∧ |gradY m (dom m k) g - fy x| ≤ (2 * s + 1) * M * h := by
  obtain ⟨hX, hY⟩ := grad_avg w hp hg hk g
  obtain ⟨hte, htc, _⟩ := edge_tria w hp hk ht
  have hA : ∀ t ∈ (m.edge k).trias, 0 < triArea m t := fun t ht => triArea_pos hg (edge_tria w hp hk ht).1
  have near : ∀ t' ∈ (m.edge k).trias, |gradX m (tpoly m t') g - fx x| ≤ (2 * s + 1) * M * h ∧ |gradY m (tpoly m t') g - fy x| ≤ (2 * s + 1) * M * h := by
    intro t' ht'
    obtain ⟨hte', htc', _⟩ := edge_tria w hp hk ht'
    obtain ⟨a, b⟩ := tri_error w hp hg hte' (hs t' hte') hM (hf t' hte') (fun i hi => hgf i (corner_mem w hp.distinct hte' hi)) htc'
    obtain ⟨c, d⟩ := (hf t hte).lip _ (pt_mem_hull htc) x hx
    have hd := mul_le_mul_of_nonneg_left ((hull_dist (pt_mem_hull htc) hx).trans (hh t hte)) hM
    have hl := mul_le_mul_of_nonneg_left (hh t' hte') (mul_nonneg (mul_nonneg (by norm_num : (0:ℝ) ≤ 2) hM) (shape_nonneg hg hs hte'))
    constructor
    · calc _ ≤ _ := abs_sub_le _ (fx (pt m k.1)) _
        _ ≤ _ := by linarith
    · calc _ ≤ _ := abs_sub_le _ (fy (pt m k.1)) _
        _ ≤ _ := by linarith
  exact ⟨weighted_near _ _ hA (trias_ne w hp hk) hX fun t' ht' => (near t' ht').1, weighted_near _ _ hA (trias_ne w hp hk) hY fun t' ht' => (near t' ht').2⟩

theorem Spec.SmoothField.one {m : Mesh} {F Fx Fy : ℕ → ℝ × ℝ → ℝ} {S M : ℝ} (hF : SmoothField m F Fx Fy S M) {r : ℕ} (hr : r < 5) :
    ∀ e ∈ m.eids, Smooth1 m e (F r) (Fx r) (Fy r) M := fun e he => ⟨hF.deriv e he r hr, hF.lip e he r hr⟩

/-- smoothed strains against the strains at any point of the edge's triangles -/
theorem eps_error {m : Mesh} (w : WF m) (hp : Proper m) (hg : Planar m) {s h : ℝ} (hs : Shape m s) (hh : Size m h) {F Fx Fy : ℕ → ℝ × ℝ → ℝ} {S M : ℝ} (hM : 0 ≤ M)
    (hF : SmoothField m F Fx Fy S M) {v : ℕ → ℝ} (hv : Nodal m F v) {k : Key} (hk : k ∈ m.ekeys) {t : ℕ} (ht : t ∈ (m.edge k).trias)
    {x : ℝ × ℝ} (hx : x ∈ hull m t) (p : Fin 6) : |eps m k v p - strain Fx Fy x p| ≤ 2 * ((2 * s + 1) * M * h) := by
  have e := fun r (hr : r < 5) => dom_error w hp hg hs hh hM (hF.one hr) (g := disp m v r) (fun i hi => hv i hi r hr) hk ht hx
  have h0 := (abs_nonneg _).trans (e 0 (by norm_num)).1
  have two : ∀ a b c d η : ℝ, |a - c| ≤ η → |b - d| ≤ η → |a + b - (c + d)| ≤ 2 * η := by
    intro a b c d η h1 h2
    rw [show a + b - (c + d) = (a - c) + (b - d) by ring]
    linarith [abs_add_le (a - c) (b - d)]
  unfold eps strain
  fin_cases p
  · exact (e 0 (by norm_num)).1.trans (by linarith)
  · exact (e 1 (by norm_num)).2.trans (by linarith)
  · exact two _ _ _ _ _ (e 0 (by norm_num)).2 (e 1 (by norm_num)).1
  · exact (e 3 (by norm_num)).1.trans (by linarith)
  · exact (e 4 (by norm_num)).2.trans (by linarith)
  · exact two _ _ _ _ _ (e 3 (by norm_num)).2 (e 4 (by norm_num)).1

theorem strain_bound {m : Mesh} {F Fx Fy : ℕ → ℝ × ℝ → ℝ} {S M : ℝ} (hF : SmoothField m F Fx Fy S M) {e : ℕ} (he : e ∈ m.eids) {x : ℝ × ℝ} (hx : x ∈ hull m e) (p : Fin 6) :
    |strain Fx Fy x p| ≤ 2 * S := by
  have b := fun r (hr : r < 5) => hF.bound e he r hr x hx
  have h0 := (abs_nonneg _).trans (b 0 (by norm_num)).1
  unfold strain
  fin_cases p
  · exact (b 0 (by norm_num)).2.1.trans (by linarith)
  · exact (b 1 (by norm_num)).2.2.trans (by linarith)
  · exact (abs_add_le _ _).trans (by linarith [(b 0 (by norm_num)).2.2, (b 1 (by norm_num)).2.1])
  · exact (b 3 (by norm_num)).2.1.trans (by linarith)
  · exact (b 4 (by norm_num)).2.2.trans (by linarith)
  · exact (abs_add_le _ _).trans (by linarith [(b 3 (by norm_num)).2.2, (b 4 (by norm_num)).2.1])

/-- change of a product of three factors -/
theorem prod3_near {x x' y y' A a δ s L ω : ℝ} (hx : |x - x'| ≤ δ) (hy : |y - y'| ≤ δ) (hx' : |x'| ≤ s) (hy' : |y'| ≤ s) (hA : |A| ≤ L) (ha : |A - a| ≤ ω) :
    |x * A * y - x' * a * y'| ≤ L * δ * (2 * s + δ) + s ^ 2 * ω := by
  have hδ := (abs_nonneg _).trans hx
  have hs := (abs_nonneg _).trans hx'
  have hL := (abs_nonneg _).trans hA
  have hyy : |y| ≤ s + δ := by
    calc |y| = |(y - y') + y'| := by ring_nf
      _ ≤ _ := (abs_add_le _ _).trans (by linarith)
  have e : x * A * y - x' * a * y' = (x - x') * A * y + x' * A * (y - y') + x' * (A - a) * y' := by ring
  rw [e]
  have b1 : |(x - x') * A * y| ≤ δ * L * (s + δ) := by
    rw [abs_mul, abs_mul]
    exact mul_le_mul (mul_le_mul hx hA (abs_nonneg _) hδ) hyy (abs_nonneg _) (mul_nonneg hδ hL)
  have b2 : |x' * A * (y - y')| ≤ s * L * δ := by
    rw [abs_mul, abs_mul]
    exact mul_le_mul (mul_le_mul hx' hA (abs_nonneg _) hs) hy (abs_nonneg _) (mul_nonneg hs hL)
  have hω := (abs_nonneg _).trans ha
  have b3 : |x' * (A - a) * y'| ≤ s * ω * s := by
    rw [abs_mul, abs_mul]
    exact mul_le_mul (mul_le_mul hx' ha (abs_nonneg _) hs) hy' (abs_nonneg _) (mul_nonneg hs hω)
  have := abs_add_le ((x - x') * A * y + x' * A * (y - y')) (x' * (A - a) * y')
  have := abs_add_le ((x - x') * A * y) (x' * A * (y - y'))
  nlinarith

theorem quad_near {x x' y y' : Fin 6 → ℝ} {A a : Fin 6 → Fin 6 → ℝ} {δ s L ω : ℝ} (hx : ∀ p, |x p - x' p| ≤ δ) (hy : ∀ p, |y p - y' p| ≤ δ) (hx' : ∀ p, |x' p| ≤ s)
    (hy' : ∀ p, |y' p| ≤ s) (hA : ∀ p q, |A p q| ≤ L) (ha : ∀ p q, |A p q - a p q| ≤ ω) :
    |∑ p, ∑ q, x p * A p q * y q - ∑ p, ∑ q, x' p * a p q * y' q| ≤ 36 * (L * δ * (2 * s + δ) + s ^ 2 * ω) := by
  rw [← sum_sub_distrib]
  simp only [← sum_sub_distrib]
  refine (abs_sum_le_sum_abs _ _).trans ?_
  calc _ ≤ ∑ _p : Fin 6, ∑ _q : Fin 6, (L * δ * (2 * s + δ) + s ^ 2 * ω) := by
        refine sum_le_sum fun p _ => (abs_sum_le_sum_abs _ _).trans (sum_le_sum fun q _ => ?_)
        exact prod3_near (hx p) (hy q) (hx' p) (hy' q) (hA p q) (ha p q)
    _ = _ := by simp; ring

/-! ### sums over edges as sums over thirds of triangles -/

/-- a laminate quantity of the third of triangle `e` at its side `k` -/
noncomputable def slot (m : Mesh) (pn : Bool) (k : Key) (e : ℕ) (sel : Lam → ℝ) : ℝ := if pn then avg m true k sel else ofProp sel (m.tria e).prop

theorem thirds {m : Mesh} (w : WF m) {X : Key → ℝ} {Y : ℕ → Key → ℝ}
    (h : ∀ k ∈ m.ekeys, |sarea m (dom m k)| * X k = ((m.edge k).trias.map fun t => triArea m t / 3 * Y t k).sum) :
    (m.ekeys.map fun k => |sarea m (dom m k)| * X k).sum = (m.eids.map fun e => ((m.tria e).edgeIds.map fun k => triArea m e / 3 * Y e k).sum).sum := by
  rw [← sum_sideTrias2 m.tria (fun e k => triArea m e / 3 * Y e k) w.ekeys_nodup (es := m.eids) (fun e he k hk => (w.mem_ekeys k).2 ⟨e, he, hk⟩)]
  congr 1
  refine List.map_congr_left fun k hk => ?_
  rw [h k hk, w.etrias k hk]

theorem quad_thirds {m : Mesh} (w : WF m) (hp : Proper m) (hg : Planar m) (pn : Bool) {k : Key} (hk : k ∈ m.ekeys) {ι : Type} [Fintype ι] (sel : ι → Lam → ℝ) (c : ι → ℝ) :
    |sarea m (dom m k)| * ∑ i, c i * avg m pn k (sel i) = ((m.edge k).trias.map fun t => triArea m t / 3 * ∑ i, c i * slot m pn k t (sel i)).sum := by
  rw [dom_area w hp hg hk]
  have hA : ∀ t ∈ (m.edge k).trias, 0 < triArea m t := fun t ht => triArea_pos hg (edge_tria w hp hk ht).1
  cases pn with
  | true =>
    simp only [slot, if_true]
    rw [List.sum_map_mul_right, div_mul_eq_mul_div]
    have : (fun t => triArea m t / 3) = fun t => triArea m t * (1 / 3) := by funext t; ring
    rw [this, List.sum_map_mul_right]; ring
  | false =>
    simp only [slot, if_neg (show ¬ (false = true) by simp), avg]
    rcases edge_shape w hp hk with ⟨t', o, htr, hs, _⟩ | ⟨t1, t2, o1, o2, htr, hs1, hs2, _, _, _, _⟩
    · have h1 := hA t' (by rw [htr]; simp)
      rw [htr]
      simp only [List.map_cons, List.map_nil, List.sum_cons, List.sum_nil, add_zero]
      congr 1
      refine sum_congr rfl fun i _ => ?_
      field_simp
    · have h1 := hA t1 (by rw [htr]; simp)
      have h2 := hA t2 (by rw [htr]; simp)
      rw [htr]
      simp only [List.map_cons, List.map_nil, List.sum_cons, List.sum_nil, add_zero]
      rw [mul_sum, mul_sum, mul_sum, ← sum_add_distrib]
      refine sum_congr rfl fun i _ => ?_
      have : triArea m t1 + triArea m t2 ≠ 0 := by linarith
      field_simp

theorem energy_thirds {m : Mesh} (w : WF m) (hp : Proper m) (hg : Planar m) (pn : Bool) (v u : ℕ → ℝ) :
    energy m pn v u = (m.eids.map fun e => ((m.tria e).edgeIds.map fun k => triArea m e / 3 *
      ∑ p, ∑ q, eps m k v p * slot m pn k e (fun l => abd l p q) * eps m k u q).sum).sum := by
  unfold energy
  refine thirds w fun k hk => ?_
  have h := quad_thirds w hp hg pn hk (ι := Fin 6 × Fin 6) (fun i l => abd l i.1 i.2) (fun i => eps m k v i.1 * eps m k u i.2)
  have e : ∀ a : Fin 6 → Fin 6 → ℝ, ∑ i : Fin 6 × Fin 6, eps m k v i.1 * eps m k u i.2 * a i.1 i.2 = ∑ p, ∑ q, eps m k v p * a p q * eps m k u q := by
    intro a
    rw [Fintype.sum_prod_type]
    exact sum_congr rfl fun p _ => sum_congr rfl fun q _ => by ring
  rw [e (fun p q => avg m pn k fun l => abd l p q)] at h
  rw [h]
  congr 1
  refine List.map_congr_left fun t _ => ?_
  rw [← e (fun p q => slot m pn k t fun l => abd l p q)]

/-! ### integrals over triangles -/

theorem hull_measure {m : Mesh} (e : ℕ) : volume (hull m e) = ENNReal.ofReal (triArea m e) := by
  unfold hull
  rw [hull_volume]
  congr 1
  unfold triArea
  rw [sarea3, abs_div, abs_of_pos (by norm_num : (0:ℝ) < 2)]
  simp only [mean_single, pt]

theorem hull_compact (m : Mesh) (e : ℕ) : IsCompact (hull m e) := Set.Finite.isCompact_convexHull ℝ (Set.toFinite _)

theorem cont_of_lip {s : Set (ℝ × ℝ)} {f : ℝ × ℝ → ℝ} {C : ℝ} (h : ∀ x ∈ s, ∀ y ∈ s, |f x - f y| ≤ C * dist x y) : ContinuousOn f s := by
  refine (LipschitzOnWith.of_dist_le_mul (K := C.toNNReal) fun x hx y hy => ?_).continuousOn
  rw [Real.dist_eq]
  exact (h x hx y hy).trans (mul_le_mul_of_nonneg_right (Real.le_coe_toNNReal C) dist_nonneg)

theorem integral_near {m : Mesh} {e : ℕ} {q : ℝ × ℝ → ℝ} (hq : ContinuousOn q (hull m e)) {c β : ℝ} (h : ∀ x ∈ hull m e, |c - q x| ≤ β) :
    |triArea m e * c - ∫ x in hull m e, q x| ≤ triArea m e * β := by
  have hv : volume.real (hull m e) = triArea m e := by
    rw [Measure.real, hull_measure, ENNReal.toReal_ofReal (show 0 ≤ triArea m e from abs_nonneg _)]
  have hint : IntegrableOn q (hull m e) := hq.integrableOn_compact (hull_compact m e)
  have hfin : volume (hull m e) < ⊤ := by rw [hull_measure]; exact ENNReal.ofReal_lt_top
  have hc : IntegrableOn (fun _ : ℝ × ℝ => c) (hull m e) := (continuousOn_const).integrableOn_compact (hull_compact m e)
  have e1 : triArea m e * c - ∫ x in hull m e, q x = ∫ x in hull m e, (c - q x) := by
    rw [integral_sub hc hint, setIntegral_const, hv, smul_eq_mul]
  rw [e1, mul_comm, ← hv, ← Real.norm_eq_abs]
  exact norm_setIntegral_le_of_norm_le_const hfin fun x hx => by rw [Real.norm_eq_abs]; exact h x hx

theorem thirds_near {m : Mesh} {q : ℕ → ℝ × ℝ → ℝ} {Y : ℕ → Key → ℝ} {β : ℝ} (hq : ∀ e ∈ m.eids, ContinuousOn (q e) (hull m e))
    (h : ∀ e ∈ m.eids, ∀ k ∈ (m.tria e).edgeIds, ∀ x ∈ hull m e, |Y e k - q e x| ≤ β) :
    |(m.eids.map fun e => ((m.tria e).edgeIds.map fun k => triArea m e / 3 * Y e k).sum).sum - (m.eids.map fun e => ∫ x in hull m e, q e x).sum| ≤ totalArea m * β := by
  unfold totalArea
  generalize hes : m.eids = es at hq h ⊢
  clear hes
  induction es with
  | nil => simp
  | cons e es ih =>
    have a := ih (fun e he => hq e (List.mem_cons_of_mem _ he)) (fun e he => h e (List.mem_cons_of_mem _ he))
    have b := fun k hk => integral_near (hq e List.mem_cons_self) (h e List.mem_cons_self k hk)
    simp only [List.map_cons, List.sum_cons, Tria.edgeIds, List.map_nil, List.sum_nil, add_zero] at a b ⊢
    have b1 := b (sortPair (m.tria e).n1 (m.tria e).n2) (by simp)
    have b2 := b (sortPair (m.tria e).n2 (m.tria e).n3) (by simp)
    have b3 := b (sortPair (m.tria e).n3 (m.tria e).n1) (by simp)
    rw [abs_le] at *
    constructor <;> linarith [a.1, a.2, b1.1, b1.2, b2.1, b2.2, b3.1, b3.2]

/-! ### laminates -/

theorem average_near {α : Type} (f : α → ℝ) {ts : List α} (h0 : ts ≠ []) {c η : ℝ} (hc : ∀ t ∈ ts, |f t - c| ≤ η) : |(ts.map f).sum / ts.length - c| ≤ η := by
  have hl : (0:ℝ) < ts.length := by exact_mod_cast List.length_pos_iff.2 h0
  refine weighted_near (fun _ => 1) f (fun _ _ => one_pos) h0 ?_ hc
  simp only [one_mul, List.map_const', List.sum_replicate, nsmul_eq_mul, mul_one]
  field_simp

theorem dom_corners {m : Mesh} (w : WF m) (hp : Proper m) {k : Key} (hk : k ∈ m.ekeys) : dom m k ≠ [] ∧
    ∀ A ∈ dom m k, A ≠ [] ∧ ∃ t ∈ (m.edge k).trias, ∀ i ∈ A, IsCorner m t i := by
  rcases edge_shape w hp hk with ⟨t', o, htr, hs, _⟩ | ⟨t1, t2, o1, o2, htr, hs1, hs2, _, _, _, _⟩
  · have c := edge_tria w hp hk (t := t') (by rw [htr]; simp)
    rw [show dom m k = [[k.1], corners m t', [k.2]] by simp [dom, htr], htr]
    refine ⟨by simp, ?_⟩
    simp only [List.mem_cons, List.not_mem_nil, or_false, forall_eq_or_imp, forall_eq, exists_eq_left, corners]
    exact ⟨⟨by simp, c.2.1⟩, ⟨by simp, Or.inl rfl, Or.inr (Or.inl rfl), Or.inr (Or.inr rfl)⟩, by simp, c.2.2⟩
  · have c := edge_tria w hp hk (t := t1) (by rw [htr]; simp)
    rw [show dom m k = [[k.1], corners m t1, [k.2], corners m t2] by simp [dom, htr], htr]
    refine ⟨by simp, ?_⟩
    simp only [List.mem_cons, List.not_mem_nil, or_false, forall_eq_or_imp, forall_eq, exists_eq_or_imp, exists_eq_left, corners]
    exact ⟨⟨by simp, Or.inl c.2.1⟩, ⟨by simp, Or.inl ⟨Or.inl rfl, Or.inr (Or.inl rfl), Or.inr (Or.inr rfl)⟩⟩, ⟨by simp, Or.inl c.2.2⟩, by simp,
      Or.inr ⟨Or.inl rfl, Or.inr (Or.inl rfl), Or.inr (Or.inr rfl)⟩⟩

theorem size_nonneg {m : Mesh} {h : ℝ} (hh : Size m h) {e : ℕ} (he : e ∈ m.eids) : 0 ≤ h := (charLen_nonneg m e).trans (hh e he)

theorem slot_near {m : Mesh} (w : WF m) (hp : Proper m) {h : ℝ} (hh : Size m h) {pn : Bool} {l : ℕ → ℝ × ℝ → Lam} {L0 L1 : ℝ} (hL1 : 0 ≤ L1) (hl : SmoothLam m l L0 L1)
    (ha : Assigned m pn l) {k : Key} (hk : k ∈ m.ekeys) {t : ℕ} (ht : t ∈ (m.edge k).trias) {x : ℝ × ℝ} (hx : x ∈ hull m t) {sel : Lam → ℝ} (hsel : sel ∈ lamData) :
    |slot m pn k t sel| ≤ L0 ∧ |slot m pn k t sel - sel (l t x)| ≤ 2 * L1 * h := by
  obtain ⟨hte, htc, _⟩ := edge_tria w hp hk ht
  have hh0 := size_nonneg hh hte
  unfold Assigned at ha
  cases pn with
  | false =>
    rw [if_neg (by simp)] at ha
    obtain ⟨y, hy, hpr⟩ := ha t hte
    have : slot m false k t sel = sel (l t y) := by
      simp only [slot, if_neg (show ¬ (false = true) by simp), hpr, ofProp]
    rw [this]
    refine ⟨hl.bound t hte y hy sel hsel, (hl.lip t hte y hy x hx sel hsel).trans ?_⟩
    have := mul_le_mul_of_nonneg_left ((hull_dist hy hx).trans (hh t hte)) hL1
    have : 0 ≤ L1 * h := by positivity
    linarith
  | true =>
    rw [if_pos rfl] at ha
    obtain ⟨hne, hd⟩ := dom_corners w hp hk
    have e : slot m true k t sel = ((dom m k).map (mean fun i => ofProp sel (m.node i).prop)).sum / (dom m k).length := by simp [slot, avg]
    have val : ∀ t' ∈ (m.edge k).trias, ∀ i, IsCorner m t' i → ofProp sel (m.node i).prop = sel (l t' (pt m i)) := by
      intro t' ht' i hi
      rw [ha t' (edge_tria w hp hk ht').1 i hi]; rfl
    constructor
    · rw [e, ← sub_zero (_ / _)]
      refine average_near _ hne fun A hA => ?_
      obtain ⟨hA0, t', ht', hi⟩ := hd A hA
      refine average_near _ hA0 fun i hiA => ?_
      rw [sub_zero, val t' ht' i (hi i hiA)]
      exact hl.bound t' (edge_tria w hp hk ht').1 _ (pt_mem_hull (hi i hiA)) sel hsel
    · rw [e]
      refine average_near _ hne fun A hA => ?_
      obtain ⟨hA0, t', ht', hi⟩ := hd A hA
      refine average_near _ hA0 fun i hiA => ?_
      obtain ⟨he', hc', _⟩ := edge_tria w hp hk ht'
      have h1 := hl.lip t' he' _ (pt_mem_hull (hi i hiA)) _ (pt_mem_hull hc') sel hsel
      have h2 := hl.lip t hte _ (pt_mem_hull htc) x hx sel hsel
      have d1 := (hull_dist (pt_mem_hull (hi i hiA)) (pt_mem_hull hc')).trans (hh t' he')
      have d2 := (hull_dist (pt_mem_hull htc) hx).trans (hh t hte)
      have m1 := mul_le_mul_of_nonneg_left d1 hL1
      have m2 := mul_le_mul_of_nonneg_left d2 hL1
      rw [← val t' ht' _ hc', val t ht _ htc] at h1
      rw [val t' ht' i (hi i hiA)]
      rw [abs_le] at *
      constructor <;> linarith [h1.1, h1.2, h2.1, h2.2]

theorem abd_lamData (p q : Fin 6) : (fun l : Lam => abd l p q) ∈ lamData := by
  unfold lamData
  exact List.mem_append_left _ (List.mem_append_left _ (List.mem_flatMap.2 ⟨p, List.mem_finRange p, List.mem_map.2 ⟨q, List.mem_finRange q, rfl⟩⟩))

theorem side_trias {m : Mesh} (w : WF m) {e : ℕ} (he : e ∈ m.eids) {k : Key} (hk : k ∈ (m.tria e).edgeIds) : k ∈ m.ekeys ∧ e ∈ (m.edge k).trias := by
  have h := (w.mem_ekeys k).2 ⟨e, he, hk⟩
  exact ⟨h, by rw [w.etrias k h]; exact mem_sideTrias.2 ⟨he, hk⟩⟩

theorem strain_cont {m : Mesh} {F Fx Fy : ℕ → ℝ × ℝ → ℝ} {S M : ℝ} (hF : SmoothField m F Fx Fy S M) {e : ℕ} (he : e ∈ m.eids) (p : Fin 6) :
    ContinuousOn (fun x => strain Fx Fy x p) (hull m e) := by
  have cx : ∀ r < 5, ContinuousOn (Fx r) (hull m e) := fun r hr => cont_of_lip fun x hx y hy => (hF.lip e he r hr x hx y hy).1
  have cy : ∀ r < 5, ContinuousOn (Fy r) (hull m e) := fun r hr => cont_of_lip fun x hx y hy => (hF.lip e he r hr x hx y hy).2
  unfold strain
  fin_cases p
  · exact cx 0 (by norm_num)
  · exact cy 1 (by norm_num)
  · exact (cy 0 (by norm_num)).add (cx 1 (by norm_num))
  · exact cx 3 (by norm_num)
  · exact cy 4 (by norm_num)
  · exact (cy 3 (by norm_num)).add (cx 4 (by norm_num))

theorem lam_cont {m : Mesh} {l : ℕ → ℝ × ℝ → Lam} {L0 L1 : ℝ} (hl : SmoothLam m l L0 L1) {e : ℕ} (he : e ∈ m.eids) {sel : Lam → ℝ} (hsel : sel ∈ lamData) :
    ContinuousOn (fun x => sel (l e x)) (hull m e) := cont_of_lip fun x hx y hy => hl.lip e he x hx y hy sel hsel

theorem energy_near {m : Mesh} (w : WF m) (hp : Proper m) (hg : Planar m) {pn : Bool} {s h : ℝ} (hs : Shape m s) (hh : Size m h) {l : ℕ → ℝ × ℝ → Lam} {L0 L1 : ℝ} (hL1 : 0 ≤ L1)
    (hl : SmoothLam m l L0 L1) (ha : Assigned m pn l) {F Fx Fy G Gx Gy : ℕ → ℝ × ℝ → ℝ} {S M : ℝ} (hM : 0 ≤ M) (hF : SmoothField m F Fx Fy S M) (hG : SmoothField m G Gx Gy S M)
    {v u : ℕ → ℝ} (hv : Nodal m F v) (hu : Nodal m G u) :
    |energy m pn v u - contEnergy m l Fx Fy Gx Gy| ≤ totalArea m *
      (36 * (L0 * (2 * ((2 * s + 1) * M * h)) * (2 * (2 * S) + 2 * ((2 * s + 1) * M * h)) + (2 * S) ^ 2 * (2 * L1 * h))) := by
  rw [energy_thirds w hp hg]
  refine thirds_near (fun e he => ?_) (fun e he k hk x hx => ?_)
  · refine continuousOn_finsetSum _ fun p _ => continuousOn_finsetSum _ fun q _ => ?_
    exact ((strain_cont hF he p).mul (lam_cont hl he (abd_lamData p q))).mul (strain_cont hG he q)
  · obtain ⟨hk', ht⟩ := side_trias w he hk
    exact quad_near (fun p => eps_error w hp hg hs hh hM hF hv hk' ht hx p) (fun p => eps_error w hp hg hs hh hM hG hu hk' ht hx p) (fun p => strain_bound hF he hx p)
      (fun p => strain_bound hG he hx p) (fun p q => (slot_near w hp hh hL1 hl ha hk' ht hx (abd_lamData p q)).1) (fun p q => (slot_near w hp hh hL1 hl ha hk' ht hx (abd_lamData p q)).2)

end Meshless
