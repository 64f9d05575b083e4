import Verif.Spec.Slope
import Verif.Lemmas.Guided
import Verif.Lemmas.Condition
import Verif.Lemmas.ConsistKG

/-! The slopes of a deflection against shear strains and rotations, and against the work of a pre-stress. -/

set_option autoImplicit false

namespace Meshless
open Spec Finset

section
variable {m : Mesh}

theorem centre_mem_hull (m : Mesh) (e : ℕ) : ((nx m (m.tria e).n1 + nx m (m.tria e).n2 + nx m (m.tria e).n3) / 3, (ny m (m.tria e).n1 + ny m (m.tria e).n2 + ny m (m.tria e).n3) / 3) ∈ hull m e := by
  have c := convex_convexHull ℝ ({pt m (m.tria e).n1, pt m (m.tria e).n2, pt m (m.tria e).n3} : Set (ℝ × ℝ))
  have h1 : pt m (m.tria e).n1 ∈ hull m e := pt_mem_hull (Or.inl rfl)
  have h2 : pt m (m.tria e).n2 ∈ hull m e := pt_mem_hull (Or.inr (Or.inl rfl))
  have h3 : pt m (m.tria e).n3 ∈ hull m e := pt_mem_hull (Or.inr (Or.inr rfl))
  have h4 := c h1 h2 (by norm_num : (0:ℝ) ≤ 1 / 2) (by norm_num : (0:ℝ) ≤ 1 / 2) (by norm_num)
  have h5 := c h4 h3 (by norm_num : (0:ℝ) ≤ 2 / 3) (by norm_num : (0:ℝ) ≤ 1 / 3) (by norm_num)
  refine Eq.subst (motive := fun p => p ∈ hull m e) ?_ h5
  ext
  · simp only [pt, smul_eq_mul, Prod.fst_add, Prod.smul_fst]; ring
  · simp only [pt, smul_eq_mul, Prod.snd_add, Prod.smul_snd]; ring

theorem lin_centre (w : WF m) (hp : Proper m) (hg : Planar m) {e : ℕ} (he : e ∈ m.eids) (f : ℕ → ℝ) :
    lin m e f ((nx m (m.tria e).n1 + nx m (m.tria e).n2 + nx m (m.tria e).n3) / 3, (ny m (m.tria e).n1 + ny m (m.tria e).n2 + ny m (m.tria e).n3) / 3) =
      (f (m.tria e).n1 + f (m.tria e).n2 + f (m.tria e).n3) / 3 := by
  obtain ⟨c, p, q, hA⟩ := aff_exists w hp hg he f
  obtain ⟨e1, e2⟩ := tri_grad hg he hA
  unfold lin
  rw [e1, e2, hA _ (Or.inl rfl), hA _ (Or.inr (Or.inl rfl)), hA _ (Or.inr (Or.inr rfl))]
  ring

/-- slopes are bounded by shear strains and rotations -/
theorem slopeSize_le (w : WF m) (hp : Proper m) (hg : Planar m) {s h : ℝ} (hs : Shape m s) (hh : Size m h) (method : String) (v : ℕ → ℝ) :
    slopeSize m v ≤ 3 * gammaSize m method v + (1 + 48 * (3 * s * h + litErr method) ^ 2) * rotSize m v := by
  set η := 3 * s * h + litErr method with hη
  unfold slopeSize gammaSize rotSize
  rw [← List.sum_map_mul_left, ← List.sum_map_mul_left, ← List.sum_map_add]
  refine List.sum_le_sum fun e he => ?_
  have hA : 0 ≤ triArea m e := abs_nonneg _
  have r1 := abs_sum_sq (rotGrad m e v)
  have r2 := abs_sum_sq (rotSum m e v)
  change rotAbs m e v ^ 2 ≤ _ at r1
  change rotSumAbs m e v ^ 2 ≤ _ at r2
  push_cast at r1 r2
  have n4 : 0 ≤ ∑ r, rotSum m e v r ^ 2 := Finset.sum_nonneg fun _ _ => sq_nonneg _
  have n5 : 0 ≤ ∑ j, rotGrad m e v j ^ 2 := Finset.sum_nonneg fun _ _ => sq_nonneg _
  have r3 : (rotAbs m e v + rotSumAbs m e v) ^ 2 ≤ 8 * (∑ j, rotGrad m e v j ^ 2 + ∑ r, rotSum m e v r ^ 2) := by
    nlinarith [sq_nonneg (rotAbs m e v - rotSumAbs m e v)]
  have r4 := mul_le_mul_of_nonneg_left r3 (sq_nonneg η)
  have three : ∀ γ d f : ℝ, |γ - (d + f)| ≤ η * (rotAbs m e v + rotSumAbs m e v) → d ^ 2 ≤ 3 * γ ^ 2 + 24 * η ^ 2 * (∑ j, rotGrad m e v j ^ 2 + ∑ r, rotSum m e v r ^ 2) + 3 * f ^ 2 := by
    intro γ d f t
    have t2 := pow_le_pow_left₀ (abs_nonneg _) t 2
    rw [sq_abs, mul_pow] at t2
    have t3 : d ^ 2 ≤ 3 * (γ ^ 2 + (γ - (d + f)) ^ 2 + f ^ 2) := by
      have three : ∀ a b c : ℝ, (a + b + c) ^ 2 ≤ 3 * (a ^ 2 + b ^ 2 + c ^ 2) := fun a b c => by nlinarith [sq_nonneg (a - b), sq_nonneg (a - c), sq_nonneg (b - c)]
      have := three γ (-(γ - (d + f))) (-f)
      rwa [show γ + -(γ - (d + f)) + -f = d by ring, neg_sq, neg_sq] at this
    linarith
  have l : linShear m e v ((nx m (m.tria e).n1 + nx m (m.tria e).n2 + nx m (m.tria e).n3) / 3, (ny m (m.tria e).n1 + ny m (m.tria e).n2 + ny m (m.tria e).n3) / 3) =
      ![gradX m (tpoly m e) (disp m v 2) + rotSum m e v 0 / 3, gradY m (tpoly m e) (disp m v 2) + rotSum m e v 1 / 3] := by
    unfold linShear
    rw [lin_centre w hp hg he, lin_centre w hp hg he, rotSum_eq, rotSum_eq]
    rfl
  have t0 := method_test w hp hg he hs hh method v (centre_mem_hull m e) 0
  have t1 := method_test w hp hg he hs hh method v (centre_mem_hull m e) 1
  rw [l] at t0 t1
  change |_ - (_ + _)| ≤ η * _ at t0
  change |_ - (_ + _)| ≤ η * _ at t1
  have u0 := three _ _ _ t0
  have u1 := three _ _ _ t1
  have e2 := Fin.sum_univ_two (f := fun r => rotSum m e v r ^ 2)
  have key : gradX m (tpoly m e) (disp m v 2) ^ 2 + gradY m (tpoly m e) (disp m v 2) ^ 2 ≤ 3 * ∑ r, methodGamma m method e v r ^ 2 +
      (1 + 48 * η ^ 2) * (∑ j, rotGrad m e v j ^ 2 + ∑ r, rotSum m e v r ^ 2) := by
    rw [Fin.sum_univ_two (f := fun r => methodGamma m method e v r ^ 2)]
    have e3 : (rotSum m e v 0 / 3) ^ 2 + (rotSum m e v 1 / 3) ^ 2 = (∑ r, rotSum m e v r ^ 2) / 9 := by rw [e2]; ring
    linarith
  have := mul_le_mul_of_nonneg_left key hA
  linarith

/-- the mean of the slopes over an edge's domain -/
theorem slope_mean (w : WF m) (hp : Proper m) (hg : Planar m) (v : ℕ → ℝ) :
    (m.ekeys.map fun k => |sarea m (dom m k)| * (gradX m (dom m k) (disp m v 2) ^ 2 + gradY m (dom m k) (disp m v 2) ^ 2)).sum ≤ slopeSize m v := by
  have one : ∀ k ∈ m.ekeys, |sarea m (dom m k)| * (gradX m (dom m k) (disp m v 2) ^ 2 + gradY m (dom m k) (disp m v 2) ^ 2) ≤
      ((m.edge k).trias.map fun t => triArea m t / 3 * (gradX m (tpoly m t) (disp m v 2) ^ 2 + gradY m (tpoly m t) (disp m v 2) ^ 2)).sum := fun k hk => by
    rw [dom_area w hp hg hk]
    have hA : ∀ t ∈ (m.edge k).trias, 0 < triArea m t := fun t ht => triArea_pos hg (edge_tria w hp hk ht).1
    have hW : 0 < ((m.edge k).trias.map (triArea m)).sum := List.sum_pos _ (fun y hy => by
      obtain ⟨t, ht, rfl⟩ := List.mem_map.1 hy
      exact hA t ht) (by simpa using trias_ne w hp hk)
    obtain ⟨hX, hY⟩ := grad_avg w hp hg hk (disp m v 2)
    have h1 := mean_sq_le (m.edge k).trias (triArea m) (fun t => gradX m (tpoly m t) (disp m v 2)) fun t ht => (hA t ht).le
    have h2 := mean_sq_le (m.edge k).trias (triArea m) (fun t => gradY m (tpoly m t) (disp m v 2)) fun t ht => (hA t ht).le
    rw [← hX] at h1
    rw [← hY] at h2
    have e : ((m.edge k).trias.map fun t => triArea m t / 3 * (gradX m (tpoly m t) (disp m v 2) ^ 2 + gradY m (tpoly m t) (disp m v 2) ^ 2)).sum =
        (((m.edge k).trias.map fun t => triArea m t * gradX m (tpoly m t) (disp m v 2) ^ 2).sum + ((m.edge k).trias.map fun t => triArea m t * gradY m (tpoly m t) (disp m v 2) ^ 2).sum) / 3 := by
      rw [← List.sum_map_add, div_eq_mul_inv, ← List.sum_map_mul_right]
      congr 1
      exact List.map_congr_left fun t _ => by ring
    rw [e]
    refine le_of_mul_le_mul_left ?_ hW
    linarith
  refine (List.sum_le_sum one).trans (le_of_eq ?_)
  have := sum_sideTrias2 m.tria (fun e _ => triArea m e / 3 * (gradX m (tpoly m e) (disp m v 2) ^ 2 + gradY m (tpoly m e) (disp m v 2) ^ 2)) w.ekeys_nodup (es := m.eids)
    (fun e he k hk => (w.mem_ekeys k).2 ⟨e, he, hk⟩)
  have e3 : slopeSize m v = (m.eids.map fun e => ((m.tria e).edgeIds.map fun _ => triArea m e / 3 * (gradX m (tpoly m e) (disp m v 2) ^ 2 + gradY m (tpoly m e) (disp m v 2) ^ 2)).sum).sum := by
    unfold slopeSize
    congr 1
    exact List.map_congr_left fun e _ => (three_same e _).symm
  rw [e3, ← this]
  congr 1
  exact List.map_congr_left fun k hk => by rw [w.etrias k hk]

/-- the pre-stress takes at most `N` times the slopes from the energy -/
theorem geometric_least (w : WF m) (hp : Proper m) (hg : Planar m) {pn : Bool} {d : ℕ → ℝ} {N : ℝ} (hN : 0 ≤ N) (hd : CompressionAtMost m pn d N) (v : ℕ → ℝ) :
    -(N * slopeSize m v) ≤ geometric m pn d v v := by
  have h1 := mul_le_mul_of_nonneg_left (slope_mean w hp hg v) hN
  refine (neg_le_neg h1).trans ?_
  unfold geometric
  rw [← List.sum_map_mul_left, ← neg_one_mul, ← List.sum_map_mul_left]
  refine List.sum_le_sum fun k hk => ?_
  have := mul_le_mul_of_nonneg_left (hd k hk (gradX m (dom m k) (disp m v 2)) (gradY m (dom m k) (disp m v 2))) (abs_nonneg (sarea m (dom m k)))
  dsimp only
  linarith

/-- the membrane forces of the nodal values of a smooth field are bounded -/
theorem smooth_compression (w : WF m) (hp : Proper m) (hg : Planar m) {pn : Bool} {s h : ℝ} (hs : Shape m s) (hh : Size m h) {l : ℕ → ℝ × ℝ → Lam} {L0 L1 : ℝ} (hL1 : 0 ≤ L1) (hl : SmoothLam m l L0 L1)
    (ha : Assigned m pn l) {F Fx Fy : ℕ → ℝ × ℝ → ℝ} {S M : ℝ} (hM : 0 ≤ M) (hF : SmoothField m F Fx Fy S M) {d : ℕ → ℝ} (hd : Nodal m F d) (hL0 : 0 ≤ L0) (hS : 0 ≤ S) (hs0 : 0 ≤ s) (hh0 : 0 ≤ h) :
    CompressionAtMost m pn d (24 * (L0 * (S + (2 * s + 1) * M * h))) := by
  intro k hk a b
  obtain ⟨t, ht⟩ := List.exists_mem_of_ne_nil _ (trias_ne w hp hk)
  have hx : pt m k.1 ∈ hull m t := pt_mem_hull (edge_tria w hp hk ht).2.1
  have hη : 0 ≤ S + (2 * s + 1) * M * h := by positivity
  have he : ∀ q, |eps m k d q| ≤ 2 * (S + (2 * s + 1) * M * h) := fun q => by
    have h1 := eps_error w hp hg hs hh hM hF hd hk ht hx q
    have h2 := strain_bound hF (edge_tria w hp hk ht).1 hx q
    rw [abs_le] at *
    constructor <;> linarith [h1.1, h1.2, h2.1, h2.2]
  have hav : ∀ sel ∈ lamData, |avg m pn k sel| ≤ L0 := fun sel hsel => by
    have h1 := quad_thirds w hp hg pn hk (ι := Unit) (fun _ => sel) (fun _ => 1)
    simp only [Finset.univ_unique, Finset.sum_singleton, one_mul] at h1
    have hA : ∀ t ∈ (m.edge k).trias, 0 < triArea m t := fun t ht => triArea_pos hg (edge_tria w hp hk ht).1
    have hW : 0 < ((m.edge k).trias.map (triArea m)).sum := List.sum_pos _ (fun y hy => by
      obtain ⟨t, ht, rfl⟩ := List.mem_map.1 hy
      exact hA t ht) (by simpa using trias_ne w hp hk)
    have hb : ∀ t ∈ (m.edge k).trias, |slot m pn k t sel| ≤ L0 := fun t ht => (slot_near w hp hh hL1 hl ha hk ht (pt_mem_hull (edge_tria w hp hk ht).2.1) hsel).1
    have up : ((m.edge k).trias.map fun t => triArea m t / 3 * slot m pn k t sel).sum ≤ ((m.edge k).trias.map fun t => triArea m t / 3 * L0).sum :=
      List.sum_le_sum fun t ht => mul_le_mul_of_nonneg_left (abs_le.1 (hb t ht)).2 (by have := hA t ht; positivity)
    have lo : ((m.edge k).trias.map fun t => triArea m t / 3 * -L0).sum ≤ ((m.edge k).trias.map fun t => triArea m t / 3 * slot m pn k t sel).sum :=
      List.sum_le_sum fun t ht => mul_le_mul_of_nonneg_left (abs_le.1 (hb t ht)).1 (by have := hA t ht; positivity)
    have e : ((m.edge k).trias.map fun t => triArea m t / 3).sum = |sarea m (dom m k)| := by
      rw [dom_area w hp hg hk, div_eq_mul_inv, ← List.sum_map_mul_right]; simp only [div_eq_mul_inv]
    rw [List.sum_map_mul_right, e, ← h1] at up lo
    have hpos : 0 < |sarea m (dom m k)| := by rw [dom_area w hp hg hk]; positivity
    exact abs_le.2 ⟨le_of_mul_le_mul_left lo hpos, le_of_mul_le_mul_left up hpos⟩
  have hm : ∀ i, |membrane m pn k d i| ≤ 12 * (L0 * (S + (2 * s + 1) * M * h)) := fun i => by
    rw [membrane_ab]
    refine (Finset.abs_sum_le_sum_abs _ _).trans ?_
    have : ∀ q ∈ (Finset.univ : Finset (Fin 6)), |avg m pn k (fun l => ab l i q) * eps m k d q| ≤ L0 * (2 * (S + (2 * s + 1) * M * h)) := fun q _ => by
      rw [abs_mul]
      exact mul_le_mul (hav _ (ab_lamData i q)) (he q) (abs_nonneg _) hL0
    refine (Finset.sum_le_card_nsmul _ _ _ this).trans (le_of_eq ?_)
    rw [Finset.card_univ, Fintype.card_fin, nsmul_eq_mul]; push_cast; ring
  rw [show 24 * (L0 * (S + (2 * s + 1) * M * h)) = 2 * (12 * (L0 * (S + (2 * s + 1) * M * h))) by ring]
  generalize 12 * (L0 * (S + (2 * s + 1) * M * h)) = B at hm
  have n0 := abs_le.1 (hm 0)
  have n1 := abs_le.1 (hm 1)
  have n2 := abs_le.1 (hm 2)
  have k0 := mul_le_mul_of_nonneg_left n0.1 (mul_self_nonneg a)
  have k1 := mul_le_mul_of_nonneg_left n1.1 (mul_self_nonneg b)
  have k2 : -(B * (a ^ 2 + b ^ 2)) ≤ 2 * a * b * membrane m pn k d 2 := by
    have h1 := mul_nonneg (sq_nonneg (a - b)) (by linarith [n2.2] : 0 ≤ B - membrane m pn k d 2)
    have h2 := mul_nonneg (sq_nonneg (a + b)) (by linarith [n2.1] : 0 ≤ B + membrane m pn k d 2)
    have h3 := mul_nonneg (sq_nonneg (a - b)) (by linarith [n2.1] : 0 ≤ B + membrane m pn k d 2)
    have h4 := mul_nonneg (sq_nonneg (a + b)) (by linarith [n2.2] : 0 ≤ B - membrane m pn k d 2)
    linarith
  linarith

end

end Meshless
