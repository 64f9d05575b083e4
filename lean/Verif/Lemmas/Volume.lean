import Mathlib.MeasureTheory.Measure.Lebesgue.EqHaar
import Mathlib.MeasureTheory.Group.Prod
import Mathlib.Analysis.SpecialFunctions.Integrals.Basic
import Mathlib.Analysis.Convex.Join
import Mathlib.LinearAlgebra.Determinant
import Mathlib.LinearAlgebra.Matrix.ToLin

/-! The area of a triangle as the measure of the convex hull of its corners. -/

set_option autoImplicit false

namespace Meshless
open MeasureTheory Set

/-- the triangle below the diagonal of the unit square -/
def stdTri : Set (ℝ × ℝ) := {q | 0 ≤ q.1 ∧ 0 ≤ q.2 ∧ q.1 + q.2 ≤ 1}

theorem stdTri_meas : MeasurableSet stdTri := by
  apply IsClosed.measurableSet
  exact (isClosed_le continuous_const continuous_fst).inter ((isClosed_le continuous_const continuous_snd).inter
    (isClosed_le (continuous_fst.add continuous_snd) continuous_const))

theorem stdTri_volume : volume stdTri = ENNReal.ofReal (1 / 2) := by
  rw [Measure.volume_eq_prod, Measure.prod_apply stdTri_meas]
  have h : ∀ x : ℝ, volume (Prod.mk x ⁻¹' stdTri) = (Ioc (0:ℝ) 1).indicator (fun x => ENNReal.ofReal (1 - x)) x + ({0} : Set ℝ).indicator (fun _ => 1) x := by
    intro x
    by_cases h0 : x = 0
    · subst h0
      have : Prod.mk (0:ℝ) ⁻¹' stdTri = Icc 0 1 := by ext y; simp [stdTri]
      simp [this]
    by_cases h1 : x ∈ Ioc (0:ℝ) 1
    · have : Prod.mk x ⁻¹' stdTri = Icc 0 (1 - x) := by
        ext y
        simp only [stdTri, mem_preimage, mem_ofPred_eq, mem_Icc]
        constructor
        · rintro ⟨_, h, h'⟩; exact ⟨h, by linarith⟩
        · rintro ⟨h, h'⟩; exact ⟨h1.1.le, h, by linarith⟩
      rw [this, Real.volume_Icc, indicator_of_mem h1, indicator_of_notMem (by simpa using h0)]
      simp
    · have : Prod.mk x ⁻¹' stdTri = ∅ := by
        ext y
        simp only [stdTri, mem_preimage, mem_ofPred_eq, mem_empty_iff_false, iff_false, not_and, not_le]
        intro hx hy
        by_contra hc
        exact h1 ⟨lt_of_le_of_ne hx (Ne.symm h0), by linarith⟩
      rw [this, indicator_of_notMem h1, indicator_of_notMem (by simpa using h0)]
      simp
  simp only [h]
  rw [lintegral_add_left (by measurability), lintegral_indicator measurableSet_Ioc, lintegral_indicator (measurableSet_singleton 0)]
  rw [← ofReal_integral_eq_lintegral_ofReal]
  · rw [← intervalIntegral.integral_of_le zero_le_one]
    rw [intervalIntegral.integral_sub (by simp) (by simp), integral_id]
    norm_num
  · exact (continuous_const.sub continuous_id).integrableOn_Ioc
  · refine (ae_restrict_iff' measurableSet_Ioc).2 (Filter.Eventually.of_forall fun x hx => ?_)
    simpa using hx.2

theorem hull_image (p q r : ℝ × ℝ) : convexHull ℝ {p, q, r} =
    (fun x => p + x) '' ((Matrix.toLin (Module.Basis.finTwoProd ℝ) (Module.Basis.finTwoProd ℝ) !![q.1 - p.1, r.1 - p.1; q.2 - p.2, r.2 - p.2]) '' stdTri) := by
  rw [image_image]
  ext x
  rw [convexHull_insert (by simp), convexHull_pair]
  simp only [mem_image, Matrix.toLin_finTwoProd_apply, mem_convexJoin, mem_singleton_iff, exists_eq_left]
  constructor
  · rintro ⟨y, hy, hx⟩
    rw [segment_eq_image] at hy hx
    obtain ⟨s, ⟨hs0, hs1⟩, rfl⟩ := hy
    obtain ⟨t, ⟨ht0, ht1⟩, rfl⟩ := hx
    refine ⟨(t * (1 - s), t * s), ⟨mul_nonneg ht0 (by linarith), mul_nonneg ht0 hs0, by dsimp only; nlinarith⟩, ?_⟩
    ext <;> simp <;> ring
  · rintro ⟨⟨s, t⟩, ⟨hs, ht, hst⟩, rfl⟩
    dsimp only at hs ht hst
    by_cases h0 : s + t = 0
    · have : s = 0 := by linarith
      have : t = 0 := by linarith
      subst_vars
      exact ⟨q, left_mem_segment ℝ q r, by convert left_mem_segment ℝ p q using 1; ext <;> simp⟩
    have hp : 0 < s + t := lt_of_le_of_ne (by linarith) (Ne.symm h0)
    refine ⟨(1 - t / (s + t)) • q + (t / (s + t)) • r, ?_, ?_⟩
    · rw [segment_eq_image]
      exact ⟨t / (s + t), ⟨by positivity, by rw [div_le_one hp]; linarith⟩, rfl⟩
    · rw [segment_eq_image]
      refine ⟨s + t, ⟨hp.le, hst⟩, ?_⟩
      ext <;> simp <;> field_simp <;> ring

theorem hull_volume (p q r : ℝ × ℝ) : volume (convexHull ℝ {p, q, r}) =
    ENNReal.ofReal (|(q.1 - p.1) * (r.2 - p.2) - (r.1 - p.1) * (q.2 - p.2)| / 2) := by
  rw [Measure.volume_eq_prod, hull_image, image_add_left, measure_preimage_add, Measure.addHaar_image_linearMap, ← Measure.volume_eq_prod, stdTri_volume, LinearMap.det_toLin, Matrix.det_fin_two_of,
    ← ENNReal.ofReal_mul (abs_nonneg _)]
  congr 1
  ring_nf

end Meshless
