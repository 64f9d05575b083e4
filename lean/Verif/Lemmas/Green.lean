import Verif.Lemmas.Volume
import Verif.Lemmas.Korn
import Verif.Lemmas.Converge
import Mathlib.MeasureTheory.Function.Jacobian
import Mathlib.MeasureTheory.Integral.IntervalIntegral.FundThmCalculus
import Mathlib.MeasureTheory.Integral.Prod

/-! Divergence theorem on a triangle, and integration by parts on a mesh. -/

set_option autoImplicit false

namespace Meshless
open MeasureTheory Set intervalIntegral

theorem stdTri_compact : IsCompact stdTri := by
  refine (isCompact_Icc (a := ((0:ℝ), (0:ℝ))) (b := (1, 1))).of_isClosed_subset ?_ ?_
  · exact (isClosed_le continuous_const continuous_fst).inter ((isClosed_le continuous_const continuous_snd).inter
      (isClosed_le (continuous_fst.add continuous_snd) continuous_const))
  · rintro ⟨a, b⟩ ⟨h1, h2, h3⟩
    simp only at h1 h2 h3
    exact ⟨⟨h1, h2⟩, ⟨by simp only; linarith, by simp only; linarith⟩⟩

/-- integral over the standard triangle, first coordinate inside -/
theorem stdTri_fubini {g : ℝ × ℝ → ℝ} (hg : ContinuousOn g stdTri) : ∫ x in stdTri, g x = ∫ t in (0:ℝ)..1, ∫ s in (0:ℝ)..(1 - t), g (s, t) := by
  have hi : Integrable (stdTri.indicator g) (volume.prod volume) := by
    rw [← Measure.volume_eq_prod]
    exact (hg.integrableOn_compact stdTri_compact).integrable_indicator stdTri_meas
  rw [← MeasureTheory.integral_indicator stdTri_meas, Measure.volume_eq_prod, integral_prod_symm _ hi, integral_of_le zero_le_one, ← integral_Icc_eq_integral_Ioc, ← MeasureTheory.integral_indicator measurableSet_Icc]
  congr 1
  ext t
  by_cases ht : t ∈ Icc (0:ℝ) 1
  · rw [indicator_of_mem ht, integral_of_le (by linarith [ht.2]), ← integral_Icc_eq_integral_Ioc, ← MeasureTheory.integral_indicator measurableSet_Icc]
    congr 1
    ext s
    by_cases hs : s ∈ Icc (0:ℝ) (1 - t)
    · rw [indicator_of_mem hs, indicator_of_mem (show (s, t) ∈ stdTri from ⟨hs.1, ht.1, by have := hs.2; simp only; linarith⟩)]
    · rw [indicator_of_notMem hs, indicator_of_notMem]
      rintro ⟨h1, h2, h3⟩
      simp only at h1 h2 h3
      exact hs ⟨h1, by linarith⟩
  · rw [indicator_of_notMem ht]
    have : (fun s => stdTri.indicator g (s, t)) = fun _ => 0 := by
      ext s
      rw [indicator_of_notMem]
      rintro ⟨h1, h2, h3⟩
      simp only at h1 h2 h3
      exact ht ⟨h2, by linarith⟩
    rw [this, integral_zero]

theorem stdTri_first {P Ps Pt : ℝ × ℝ → ℝ} (hP : ∀ x ∈ stdTri, HasFDerivWithinAt P (Ps x • ContinuousLinearMap.fst ℝ ℝ ℝ + Pt x • ContinuousLinearMap.snd ℝ ℝ ℝ) stdTri x) (hc : ContinuousOn Ps stdTri) :
    ∫ x in stdTri, Ps x = ∫ t in (0:ℝ)..1, (P (1 - t, t) - P (0, t)) := by
  rw [stdTri_fubini hc]
  refine integral_congr fun t ht => ?_
  rw [uIcc_of_le zero_le_one] at ht
  have hm : ∀ s ∈ Icc (0:ℝ) (1 - t), (s, t) ∈ stdTri := fun s hs => ⟨hs.1, ht.1, by have := hs.2; simp only; linarith⟩
  have hPc : ContinuousOn P stdTri := fun x hx => (hP x hx).continuousWithinAt
  have hl : ContinuousOn (fun s : ℝ => (s, t)) (Icc (0:ℝ) (1 - t)) := by fun_prop
  have h01 : (0:ℝ) ≤ 1 - t := by linarith [ht.2]
  refine integral_eq_sub_of_hasDerivAt_of_le h01 (f := fun s => P (s, t)) (hPc.comp hl hm) (fun s hs => ?_) ?_
  · have h1 := (hP (s, t) (hm s ⟨hs.1.le, hs.2.le⟩)).comp_hasDerivWithinAt (s := Icc (0:ℝ) (1 - t)) s (f := fun s => (s, t)) (((hasDerivAt_id s).prodMk (hasDerivAt_const s t)).hasDerivWithinAt) hm
    have h2 := h1.hasDerivAt (Icc_mem_nhds hs.1 hs.2)
    refine (h2.congr_deriv ?_ : HasDerivAt (fun s => P (s, t)) _ s)
    simp
  · have : ContinuousOn (fun s => Ps (s, t)) (uIcc 0 (1 - t)) := by rw [uIcc_of_le h01]; exact hc.comp hl hm
    exact this.intervalIntegrable

theorem stdTri_swap {g : ℝ × ℝ → ℝ} : ∫ x in stdTri, g x.swap = ∫ x in stdTri, g x := by
  have hp : MeasurePreserving (Prod.swap : ℝ × ℝ → ℝ × ℝ) (volume : Measure (ℝ × ℝ)) volume := by
    rw [Measure.volume_eq_prod]; exact Measure.measurePreserving_swap
  have he : MeasurableEmbedding (Prod.swap : ℝ × ℝ → ℝ × ℝ) := MeasurableEquiv.prodComm.measurableEmbedding
  have := hp.setIntegral_preimage_emb he g stdTri
  rw [← this]
  congr 2
  ext ⟨a, b⟩
  simp only [stdTri, mem_ofPred_eq, mem_preimage, Prod.swap]
  constructor <;> rintro ⟨h1, h2, h3⟩ <;> exact ⟨h2, h1, by linarith⟩

theorem stdTri_second {Q Qs Qt : ℝ × ℝ → ℝ} (hQ : ∀ x ∈ stdTri, HasFDerivWithinAt Q (Qs x • ContinuousLinearMap.fst ℝ ℝ ℝ + Qt x • ContinuousLinearMap.snd ℝ ℝ ℝ) stdTri x) (hc : ContinuousOn Qt stdTri) :
    ∫ x in stdTri, Qt x = ∫ t in (0:ℝ)..1, (Q (t, 1 - t) - Q (t, 0)) := by
  have hm : MapsTo (Prod.swap : ℝ × ℝ → ℝ × ℝ) stdTri stdTri := by
    rintro ⟨a, b⟩ ⟨h1, h2, h3⟩
    simp only at h1 h2 h3
    exact ⟨h2, h1, by simp only [Prod.swap]; linarith⟩
  have h := stdTri_first (P := fun x => Q x.swap) (Ps := fun x => Qt x.swap) (Pt := fun x => Qs x.swap) (fun x hx => by
    have h1 : HasFDerivWithinAt (Prod.swap : ℝ × ℝ → ℝ × ℝ) ((ContinuousLinearMap.snd ℝ ℝ ℝ).prod (ContinuousLinearMap.fst ℝ ℝ ℝ)) stdTri x := by
      have : (Prod.swap : ℝ × ℝ → ℝ × ℝ) = fun x => ((ContinuousLinearMap.snd ℝ ℝ ℝ).prod (ContinuousLinearMap.fst ℝ ℝ ℝ)) x := by ext x <;> rfl
      rw [this]
      exact ContinuousLinearMap.hasFDerivWithinAt _
    have h2 := (hQ x.swap (hm hx)).comp x h1 hm
    refine h2.congr_fderiv ?_
    ext <;> simp) (hc.comp continuous_swap.continuousOn hm)
  rw [stdTri_swap] at h
  exact h

/-- divergence theorem on the standard triangle -/
theorem stdTri_green {P Ps Pt Q Qs Qt : ℝ × ℝ → ℝ} (hP : ∀ x ∈ stdTri, HasFDerivWithinAt P (Ps x • ContinuousLinearMap.fst ℝ ℝ ℝ + Pt x • ContinuousLinearMap.snd ℝ ℝ ℝ) stdTri x)
    (hQ : ∀ x ∈ stdTri, HasFDerivWithinAt Q (Qs x • ContinuousLinearMap.fst ℝ ℝ ℝ + Qt x • ContinuousLinearMap.snd ℝ ℝ ℝ) stdTri x) (hPs : ContinuousOn Ps stdTri) (hQt : ContinuousOn Qt stdTri) :
    ∫ x in stdTri, (Ps x + Qt x) = (∫ t in (0:ℝ)..1, (P (1 - t, t) + Q (1 - t, t))) - (∫ t in (0:ℝ)..1, P (0, t)) - ∫ t in (0:ℝ)..1, Q (t, 0) := by
  have hPc : ContinuousOn P stdTri := fun x hx => (hP x hx).continuousWithinAt
  have hQc : ContinuousOn Q stdTri := fun x hx => (hQ x hx).continuousWithinAt
  have line : ∀ {G : ℝ × ℝ → ℝ} {l : ℝ → ℝ × ℝ}, ContinuousOn G stdTri → Continuous l → (∀ t ∈ Icc (0:ℝ) 1, l t ∈ stdTri) → IntervalIntegrable (fun t => G (l t)) volume 0 1 := by
    intro G l hG hl hm
    have : ContinuousOn (fun t => G (l t)) (uIcc 0 1) := by rw [uIcc_of_le zero_le_one]; exact hG.comp hl.continuousOn hm
    exact this.intervalIntegrable
  have m1 : ∀ t ∈ Icc (0:ℝ) 1, (1 - t, t) ∈ stdTri := fun t ht => ⟨by simp only; linarith [ht.2], ht.1, by simp⟩
  have m2 : ∀ t ∈ Icc (0:ℝ) 1, (t, 1 - t) ∈ stdTri := fun t ht => ⟨ht.1, by simp only; linarith [ht.2], by simp⟩
  have m3 : ∀ t ∈ Icc (0:ℝ) 1, ((0:ℝ), t) ∈ stdTri := fun t ht => ⟨le_rfl, ht.1, by simpa using ht.2⟩
  have m4 : ∀ t ∈ Icc (0:ℝ) 1, (t, (0:ℝ)) ∈ stdTri := fun t ht => ⟨ht.1, le_rfl, by simpa using ht.2⟩
  have c1 : Continuous fun t : ℝ => (1 - t, t) := by fun_prop
  have c2 : Continuous fun t : ℝ => (t, 1 - t) := by fun_prop
  have c3 : Continuous fun t : ℝ => ((0:ℝ), t) := by fun_prop
  have c4 : Continuous fun t : ℝ => (t, (0:ℝ)) := by fun_prop
  rw [MeasureTheory.integral_add (hPs.integrableOn_compact stdTri_compact) (hQt.integrableOn_compact stdTri_compact), stdTri_first hP hPs, stdTri_second hQ hQt,
    intervalIntegral.integral_sub (line hPc c1 m1) (line hPc c3 m3), intervalIntegral.integral_sub (line hQc c2 m2) (line hQc c4 m4), intervalIntegral.integral_add (line hPc c1 m1) (line hQc c1 m1)]
  have h : (∫ t in (0:ℝ)..1, Q (1 - t, t)) = ∫ t in (0:ℝ)..1, Q (t, 1 - t) := by
    have := intervalIntegral.integral_comp_sub_left (a := 0) (b := 1) (fun t => Q (t, 1 - t)) 1
    simpa using this
  rw [h]; ring

/-- flow of the field `(X, Y)` through the straight line from `p` to `q`, to the right -/
noncomputable def flow (X Y : ℝ × ℝ → ℝ) (p q : ℝ × ℝ) : ℝ :=
  ∫ t in (0:ℝ)..1, ((q.2 - p.2) * X (p + t • (q - p)) - (q.1 - p.1) * Y (p + t • (q - p)))

theorem flow_swap (X Y : ℝ × ℝ → ℝ) (p q : ℝ × ℝ) : flow X Y q p = -flow X Y p q := by
  unfold flow
  have := intervalIntegral.integral_comp_sub_left (a := 0) (b := 1) (fun t : ℝ => (q.2 - p.2) * X (p + t • (q - p)) - (q.1 - p.1) * Y (p + t • (q - p))) 1
  simp only [sub_self, sub_zero] at this
  rw [← this, ← intervalIntegral.integral_neg]
  congr 1
  ext t
  have e : q + t • (p - q) = p + (1 - t) • (q - p) := by
    ext <;> simp only [Prod.fst_add, Prod.snd_add, Prod.smul_fst, Prod.smul_snd, Prod.fst_sub, Prod.snd_sub, smul_eq_mul] <;> ring
  rw [e]; ring

/-- the affine map of the standard triangle to the triangle `p q r` -/
def triMap (p q r : ℝ × ℝ) (x : ℝ × ℝ) : ℝ × ℝ := p + (x.1 • (q - p) + x.2 • (r - p))

noncomputable def triLin (p q r : ℝ × ℝ) : (ℝ × ℝ) →L[ℝ] ℝ × ℝ := (ContinuousLinearMap.fst ℝ ℝ ℝ).smulRight (q - p) + (ContinuousLinearMap.snd ℝ ℝ ℝ).smulRight (r - p)

theorem triMap_deriv (p q r x : ℝ × ℝ) : HasFDerivAt (triMap p q r) (triLin p q r) x := by
  have h : triMap p q r = fun x => p + triLin p q r x := by ext x <;> simp [triMap, triLin]
  rw [h]
  exact (ContinuousLinearMap.hasFDerivAt _).const_add p

theorem triMap_image (p q r : ℝ × ℝ) : triMap p q r '' stdTri = convexHull ℝ {p, q, r} := by
  rw [hull_image, image_image]
  congr 1
  ext x <;> simp [triMap, Matrix.toLin_finTwoProd_apply] <;> ring

theorem triLin_det (p q r : ℝ × ℝ) : (triLin p q r).det = (q.1 - p.1) * (r.2 - p.2) - (r.1 - p.1) * (q.2 - p.2) := by
  have : ((triLin p q r : (ℝ × ℝ) →L[ℝ] ℝ × ℝ) : (ℝ × ℝ) →ₗ[ℝ] ℝ × ℝ) =
      Matrix.toLin (Module.Basis.finTwoProd ℝ) (Module.Basis.finTwoProd ℝ) !![q.1 - p.1, r.1 - p.1; q.2 - p.2, r.2 - p.2] := by
    ext <;> simp [triLin, Matrix.toLin_finTwoProd_apply]
  rw [ContinuousLinearMap.det, this, LinearMap.det_toLin, Matrix.det_fin_two_of]

theorem triMap_inj {p q r : ℝ × ℝ} (h : (q.1 - p.1) * (r.2 - p.2) - (r.1 - p.1) * (q.2 - p.2) ≠ 0) : Function.Injective (triMap p q r) := by
  intro x y hxy
  have h1 := congrArg Prod.fst hxy
  have h2 := congrArg Prod.snd hxy
  simp only [triMap, Prod.fst_add, Prod.snd_add, Prod.smul_fst, Prod.smul_snd, Prod.fst_sub, Prod.snd_sub, smul_eq_mul] at h1 h2
  have a1 : ((q.1 - p.1) * (r.2 - p.2) - (r.1 - p.1) * (q.2 - p.2)) * (x.1 - y.1) = 0 := by linear_combination (r.2 - p.2) * h1 - (r.1 - p.1) * h2
  have a2 : ((q.1 - p.1) * (r.2 - p.2) - (r.1 - p.1) * (q.2 - p.2)) * (x.2 - y.2) = 0 := by linear_combination (q.1 - p.1) * h2 - (q.2 - p.2) * h1
  ext
  · linarith [(mul_eq_zero.1 a1).resolve_left h]
  · linarith [(mul_eq_zero.1 a2).resolve_left h]

/-- integral over a triangle by the affine map of the standard triangle -/
theorem tri_integral {p q r : ℝ × ℝ} (h : (q.1 - p.1) * (r.2 - p.2) - (r.1 - p.1) * (q.2 - p.2) ≠ 0) (g : ℝ × ℝ → ℝ) :
    ∫ x in convexHull ℝ {p, q, r}, g x = |(q.1 - p.1) * (r.2 - p.2) - (r.1 - p.1) * (q.2 - p.2)| * ∫ x in stdTri, g (triMap p q r x) := by
  have : (volume : Measure (ℝ × ℝ)).IsAddHaarMeasure := by rw [Measure.volume_eq_prod]; infer_instance
  rw [← triMap_image, integral_image_eq_integral_abs_det_fderiv_smul volume stdTri_meas (fun x _ => (triMap_deriv p q r x).hasFDerivWithinAt) (triMap_inj h).injOn]
  simp only [triLin_det, smul_eq_mul]
  rw [MeasureTheory.integral_const_mul]

/-- divergence theorem on a triangle -/
theorem tri_green {p q r : ℝ × ℝ} (h : (q.1 - p.1) * (r.2 - p.2) - (r.1 - p.1) * (q.2 - p.2) ≠ 0) {X Xx Xy Y Yx Yy : ℝ × ℝ → ℝ}
    (hX : ∀ x ∈ convexHull ℝ {p, q, r}, HasFDerivWithinAt X (Xx x • ContinuousLinearMap.fst ℝ ℝ ℝ + Xy x • ContinuousLinearMap.snd ℝ ℝ ℝ) (convexHull ℝ {p, q, r}) x)
    (hY : ∀ x ∈ convexHull ℝ {p, q, r}, HasFDerivWithinAt Y (Yx x • ContinuousLinearMap.fst ℝ ℝ ℝ + Yy x • ContinuousLinearMap.snd ℝ ℝ ℝ) (convexHull ℝ {p, q, r}) x)
    (c1 : ContinuousOn Xx (convexHull ℝ {p, q, r})) (c2 : ContinuousOn Xy (convexHull ℝ {p, q, r})) (c3 : ContinuousOn Yx (convexHull ℝ {p, q, r})) (c4 : ContinuousOn Yy (convexHull ℝ {p, q, r})) :
    ∫ x in convexHull ℝ {p, q, r}, (Xx x + Yy x) = sg ((q.1 - p.1) * (r.2 - p.2) - (r.1 - p.1) * (q.2 - p.2)) * (flow X Y p q + flow X Y q r + flow X Y r p) := by
  have hm : MapsTo (triMap p q r) stdTri (convexHull ℝ {p, q, r}) := by rw [← triMap_image]; exact mapsTo_image _ _
  have hcm : ContinuousOn (triMap p q r) stdTri := fun x _ => (triMap_deriv p q r x).continuousAt.continuousWithinAt
  rw [tri_integral h, ← sg_mul h, mul_assoc, ← MeasureTheory.integral_const_mul]
  congr 1
  have d : ∀ {G Gx Gy : ℝ × ℝ → ℝ}, (∀ x ∈ convexHull ℝ {p, q, r}, HasFDerivWithinAt G (Gx x • ContinuousLinearMap.fst ℝ ℝ ℝ + Gy x • ContinuousLinearMap.snd ℝ ℝ ℝ) (convexHull ℝ {p, q, r}) x) →
      ∀ x ∈ stdTri, HasFDerivWithinAt (fun x => G (triMap p q r x)) ((Gx (triMap p q r x) * (q.1 - p.1) + Gy (triMap p q r x) * (q.2 - p.2)) • ContinuousLinearMap.fst ℝ ℝ ℝ
        + (Gx (triMap p q r x) * (r.1 - p.1) + Gy (triMap p q r x) * (r.2 - p.2)) • ContinuousLinearMap.snd ℝ ℝ ℝ) stdTri x := by
    intro G Gx Gy hG x hx
    refine ((hG _ (hm hx)).comp x (triMap_deriv p q r x).hasFDerivWithinAt hm).congr_fderiv ?_
    ext <;> simp [triLin]
  have dX := d hX
  have dY := d hY
  have k1 := c1.comp hcm hm
  have k2 := c2.comp hcm hm
  have k3 := c3.comp hcm hm
  have k4 := c4.comp hcm hm
  have key := stdTri_green (P := fun x => (r.2 - p.2) * X (triMap p q r x) - (r.1 - p.1) * Y (triMap p q r x)) (Q := fun x => (q.1 - p.1) * Y (triMap p q r x) - (q.2 - p.2) * X (triMap p q r x))
    (Ps := fun x => (r.2 - p.2) * (Xx (triMap p q r x) * (q.1 - p.1) + Xy (triMap p q r x) * (q.2 - p.2)) - (r.1 - p.1) * (Yx (triMap p q r x) * (q.1 - p.1) + Yy (triMap p q r x) * (q.2 - p.2)))
    (Pt := fun x => (r.2 - p.2) * (Xx (triMap p q r x) * (r.1 - p.1) + Xy (triMap p q r x) * (r.2 - p.2)) - (r.1 - p.1) * (Yx (triMap p q r x) * (r.1 - p.1) + Yy (triMap p q r x) * (r.2 - p.2)))
    (Qs := fun x => (q.1 - p.1) * (Yx (triMap p q r x) * (q.1 - p.1) + Yy (triMap p q r x) * (q.2 - p.2)) - (q.2 - p.2) * (Xx (triMap p q r x) * (q.1 - p.1) + Xy (triMap p q r x) * (q.2 - p.2)))
    (Qt := fun x => (q.1 - p.1) * (Yx (triMap p q r x) * (r.1 - p.1) + Yy (triMap p q r x) * (r.2 - p.2)) - (q.2 - p.2) * (Xx (triMap p q r x) * (r.1 - p.1) + Xy (triMap p q r x) * (r.2 - p.2)))
    (fun x hx => (((dX x hx).const_mul (r.2 - p.2)).sub ((dY x hx).const_mul (r.1 - p.1))).congr_fderiv (by rw [smul_add, smul_add, smul_smul, smul_smul, smul_smul, smul_smul, add_sub_add_comm, ← sub_smul, ← sub_smul]))
    (fun x hx => (((dY x hx).const_mul (q.1 - p.1)).sub ((dX x hx).const_mul (q.2 - p.2))).congr_fderiv (by rw [smul_add, smul_add, smul_smul, smul_smul, smul_smul, smul_smul, add_sub_add_comm, ← sub_smul, ← sub_smul]))
    ((continuousOn_const.mul ((k1.mul continuousOn_const).add (k2.mul continuousOn_const))).sub (continuousOn_const.mul ((k3.mul continuousOn_const).add (k4.mul continuousOn_const))))
    ((continuousOn_const.mul ((k3.mul continuousOn_const).add (k4.mul continuousOn_const))).sub (continuousOn_const.mul ((k1.mul continuousOn_const).add (k2.mul continuousOn_const))))
  have e0 : (∫ x in stdTri, ((q.1 - p.1) * (r.2 - p.2) - (r.1 - p.1) * (q.2 - p.2)) * (Xx (triMap p q r x) + Yy (triMap p q r x))) = _ := (MeasureTheory.integral_congr_ae (Filter.Eventually.of_forall fun x => by
    ring)).trans key
  rw [e0, flow_swap X Y p r]
  have e1 : flow X Y p q = -∫ t in (0:ℝ)..1, ((q.1 - p.1) * Y (triMap p q r (t, 0)) - (q.2 - p.2) * X (triMap p q r (t, 0))) := by
    rw [← intervalIntegral.integral_neg]
    refine intervalIntegral.integral_congr fun t _ => ?_
    simp only [triMap, zero_smul, add_zero]; ring
  have e2 : flow X Y p r = ∫ t in (0:ℝ)..1, ((r.2 - p.2) * X (triMap p q r (0, t)) - (r.1 - p.1) * Y (triMap p q r (0, t))) := by
    refine intervalIntegral.integral_congr fun t _ => ?_
    simp only [triMap, zero_smul, zero_add]
  have e3 : flow X Y q r = ∫ t in (0:ℝ)..1, ((r.2 - p.2) * X (triMap p q r (1 - t, t)) - (r.1 - p.1) * Y (triMap p q r (1 - t, t)) + ((q.1 - p.1) * Y (triMap p q r (1 - t, t)) - (q.2 - p.2) * X (triMap p q r (1 - t, t)))) := by
    refine intervalIntegral.integral_congr fun t _ => ?_
    have : triMap p q r (1 - t, t) = q + t • (r - q) := by
      ext <;> simp only [triMap, Prod.fst_add, Prod.snd_add, Prod.smul_fst, Prod.smul_snd, Prod.fst_sub, Prod.snd_sub, smul_eq_mul] <;> ring
    simp only [this]; ring
  rw [e1, e2, e3]; ring

/-! ### on a mesh -/

open Spec Finset

theorem sg_half {x : ℝ} : sg (x / 2) = sg x := by
  unfold sg
  by_cases h : 0 < x
  · rw [if_pos (by linarith), if_pos h]
  · rw [if_neg (by linarith), if_neg h]

variable {m : Mesh}

/-- a flux through the sides that is the same from both sides sums to its part on the boundary -/
theorem flux_boundary (w : WF m) (hp : Proper m) (hg : Planar m) {c : ℕ → ℕ → ℝ} (hc : ∀ i j, c j i = -c i j) :
    (m.eids.map fun e => sg (sarea m (tpoly m e)) * (c (m.tria e).n1 (m.tria e).n2 + c (m.tria e).n2 (m.tria e).n3 + c (m.tria e).n3 (m.tria e).n1)).sum =
      (m.ekeys.map fun k => if (m.edge k).trias.length = 1 then ((m.edge k).trias.map fun e => sg (sarea m [[k.1], [k.2], corners m e]) * c k.1 k.2).sum else 0).sum := by
  have h1 := sum_sideTrias2 m.tria (fun e k => sg (sarea m [[k.1], [k.2], corners m e]) * c k.1 k.2) w.ekeys_nodup (es := m.eids) (fun e he k hk => (w.mem_ekeys k).2 ⟨e, he, hk⟩)
  have h2 : (m.eids.map fun e => sg (sarea m (tpoly m e)) * (c (m.tria e).n1 (m.tria e).n2 + c (m.tria e).n2 (m.tria e).n3 + c (m.tria e).n3 (m.tria e).n1)) =
      m.eids.map fun e => ((m.tria e).edgeIds.map fun k => sg (sarea m [[k.1], [k.2], corners m e]) * c k.1 k.2).sum := by
    refine List.map_congr_left fun e he => ?_
    have h0 : sarea m (tpoly m e) / 3 ≠ 0 := div_ne_zero (hg.nondeg e he) (by norm_num)
    obtain ⟨a1, a2, a3⟩ := side_third m e
    simp only [Tria.edgeIds, List.map_cons, List.map_nil, List.sum_cons, List.sum_nil, add_zero]
    rw [side_flux hc (by rw [a1]; exact h0), side_flux hc (by rw [a2]; exact h0), side_flux hc (by rw [a3]; exact h0), a1, a2, a3, sg_third]
    ring
  rw [h2, ← h1]
  refine congrArg List.sum (List.map_congr_left fun k hk => ?_)
  rw [← w.etrias k hk]
  rcases edge_shape w hp hk with ⟨t, o, htr, _⟩ | ⟨t1, t2, o1, o2, htr, _⟩
  · rw [if_pos (by rw [htr]; rfl)]
  · rw [if_neg (by rw [htr]; simp), htr]
    simp only [List.map_cons, List.map_nil, List.sum_cons, List.sum_nil, add_zero]
    rw [← add_mul, sg_opposite (hg.opposite k hk t1 t2 htr), zero_mul]

/-- flow through the side from node `i` to node `j` of the field `(X, Y)` times the linear function with the nodal values `f` -/
noncomputable def sideFlow (m : Mesh) (X Y : ℝ × ℝ → ℝ) (f : ℕ → ℝ) (i j : ℕ) : ℝ :=
  ∫ t in (0:ℝ)..1, ((1 - t) * f i + t * f j) * ((ny m j - ny m i) * X (pt m i + t • (pt m j - pt m i)) - (nx m j - nx m i) * Y (pt m i + t • (pt m j - pt m i)))

theorem sideFlow_swap (X Y : ℝ × ℝ → ℝ) (f : ℕ → ℝ) (i j : ℕ) : sideFlow m X Y f j i = -sideFlow m X Y f i j := by
  unfold sideFlow
  have := intervalIntegral.integral_comp_sub_left (a := 0) (b := 1)
    (fun t : ℝ => ((1 - t) * f i + t * f j) * ((ny m j - ny m i) * X (pt m i + t • (pt m j - pt m i)) - (nx m j - nx m i) * Y (pt m i + t • (pt m j - pt m i)))) 1
  simp only [sub_self, sub_zero] at this
  rw [← this, ← intervalIntegral.integral_neg]
  congr 1
  ext t
  have e : pt m j + t • (pt m i - pt m j) = pt m i + (1 - t) • (pt m j - pt m i) := by
    ext <;> simp only [Prod.fst_add, Prod.snd_add, Prod.smul_fst, Prod.smul_snd, Prod.fst_sub, Prod.snd_sub, smul_eq_mul] <;> ring
  rw [e]; ring

theorem lin_side (w : WF m) (hp : Proper m) (hg : Planar m) {e : ℕ} (he : e ∈ m.eids) (f : ℕ → ℝ) {i j : ℕ} (hi : IsCorner m e i) (hj : IsCorner m e j) (t : ℝ) :
    lin m e f (pt m i + t • (pt m j - pt m i)) = (1 - t) * f i + t * f j := by
  have h1 := lin_sub (m := m) (e := e) f (pt m i + t • (pt m j - pt m i)) (pt m i)
  have h2 := lin_sub (m := m) (e := e) f (pt m j) (pt m i)
  rw [lin_corner w hp hg he f hi] at h1 h2
  rw [lin_corner w hp hg he f hj] at h2
  simp only [Prod.fst_add, Prod.snd_add, Prod.smul_fst, Prod.smul_snd, Prod.fst_sub, Prod.snd_sub, smul_eq_mul] at h1
  linear_combination h1 - t * h2

theorem lin_deriv (e : ℕ) (f : ℕ → ℝ) (x : ℝ × ℝ) :
    HasFDerivAt (lin m e f) (gradX m (tpoly m e) f • ContinuousLinearMap.fst ℝ ℝ ℝ + gradY m (tpoly m e) f • ContinuousLinearMap.snd ℝ ℝ ℝ) x := by
  have h : lin m e f = fun x => (f (m.tria e).n1 - gradX m (tpoly m e) f * nx m (m.tria e).n1 - gradY m (tpoly m e) f * ny m (m.tria e).n1)
      + (gradX m (tpoly m e) f • ContinuousLinearMap.fst ℝ ℝ ℝ + gradY m (tpoly m e) f • ContinuousLinearMap.snd ℝ ℝ ℝ : (ℝ × ℝ) →L[ℝ] ℝ) x := by
    ext x; simp [lin]; ring
  rw [h]
  exact (ContinuousLinearMap.hasFDerivAt _).const_add _

/-- integration by parts in a triangle -/
theorem tri_parts (w : WF m) (hp : Proper m) (hg : Planar m) {e : ℕ} (he : e ∈ m.eids) {X Xx Xy Y Yx Yy : ℝ × ℝ → ℝ}
    (hX : ∀ x ∈ hull m e, HasFDerivWithinAt X (Xx x • ContinuousLinearMap.fst ℝ ℝ ℝ + Xy x • ContinuousLinearMap.snd ℝ ℝ ℝ) (hull m e) x)
    (hY : ∀ x ∈ hull m e, HasFDerivWithinAt Y (Yx x • ContinuousLinearMap.fst ℝ ℝ ℝ + Yy x • ContinuousLinearMap.snd ℝ ℝ ℝ) (hull m e) x)
    (c1 : ContinuousOn Xx (hull m e)) (c2 : ContinuousOn Xy (hull m e)) (c3 : ContinuousOn Yx (hull m e)) (c4 : ContinuousOn Yy (hull m e)) (f : ℕ → ℝ) :
    ∫ x in hull m e, (X x * gradX m (tpoly m e) f + Y x * gradY m (tpoly m e) f + (Xx x + Yy x) * lin m e f x) =
      sg (sarea m (tpoly m e)) * (sideFlow m X Y f (m.tria e).n1 (m.tria e).n2 + sideFlow m X Y f (m.tria e).n2 (m.tria e).n3 + sideFlow m X Y f (m.tria e).n3 (m.tria e).n1) := by
  have hs : sarea m (tpoly m e) = (((pt m (m.tria e).n2).1 - (pt m (m.tria e).n1).1) * ((pt m (m.tria e).n3).2 - (pt m (m.tria e).n1).2)
      - ((pt m (m.tria e).n3).1 - (pt m (m.tria e).n1).1) * ((pt m (m.tria e).n2).2 - (pt m (m.tria e).n1).2)) / 2 := by
    unfold tpoly; rw [sarea3]; simp only [mean_single, pt]
  have h0 := hg.nondeg e he
  have hXc : ContinuousOn X (hull m e) := fun x hx => (hX x hx).continuousWithinAt
  have hYc : ContinuousOn Y (hull m e) := fun x hx => (hY x hx).continuousWithinAt
  have hl := (lin_cont (m := m) (e := e) f).continuousOn (s := hull m e)
  have key := tri_green (p := pt m (m.tria e).n1) (q := pt m (m.tria e).n2) (r := pt m (m.tria e).n3) (fun h => h0 (by change sarea m (tpoly m e) = 0; rw [hs, h, zero_div]))
    (X := fun x => lin m e f x * X x) (Y := fun x => lin m e f x * Y x)
    (Xx := fun x => lin m e f x * Xx x + X x * gradX m (tpoly m e) f) (Xy := fun x => lin m e f x * Xy x + X x * gradY m (tpoly m e) f)
    (Yx := fun x => lin m e f x * Yx x + Y x * gradX m (tpoly m e) f) (Yy := fun x => lin m e f x * Yy x + Y x * gradY m (tpoly m e) f)
    (fun x hx => ((lin_deriv e f x).hasFDerivWithinAt.mul (hX x hx)).congr_fderiv (by
      rw [smul_add, smul_add, smul_smul, smul_smul, smul_smul, smul_smul, add_add_add_comm, ← add_smul, ← add_smul]))
    (fun x hx => ((lin_deriv e f x).hasFDerivWithinAt.mul (hY x hx)).congr_fderiv (by
      rw [smul_add, smul_add, smul_smul, smul_smul, smul_smul, smul_smul, add_add_add_comm, ← add_smul, ← add_smul]))
    ((hl.mul c1).add (hXc.mul continuousOn_const)) ((hl.mul c2).add (hXc.mul continuousOn_const)) ((hl.mul c3).add (hYc.mul continuousOn_const)) ((hl.mul c4).add (hYc.mul continuousOn_const))
  have fl : ∀ i j, IsCorner m e i → IsCorner m e j → flow (fun x => lin m e f x * X x) (fun x => lin m e f x * Y x) (pt m i) (pt m j) = sideFlow m X Y f i j := by
    intro i j hi hj
    refine intervalIntegral.integral_congr fun t _ => ?_
    simp only [lin_side w hp hg he f hi hj]
    simp only [pt]; ring
  rw [fl _ _ (Or.inl rfl) (Or.inr (Or.inl rfl)), fl _ _ (Or.inr (Or.inl rfl)) (Or.inr (Or.inr rfl)), fl _ _ (Or.inr (Or.inr rfl)) (Or.inl rfl), ← sg_half, ← hs] at key
  rw [← key]
  exact MeasureTheory.integral_congr_ae (Filter.Eventually.of_forall fun x => by ring)

/-- integration by parts on a mesh -/
theorem mesh_parts (w : WF m) (hp : Proper m) (hg : Planar m) {X Xx Xy Y Yx Yy : ℝ × ℝ → ℝ}
    (hX : ∀ e ∈ m.eids, ∀ x ∈ hull m e, HasFDerivWithinAt X (Xx x • ContinuousLinearMap.fst ℝ ℝ ℝ + Xy x • ContinuousLinearMap.snd ℝ ℝ ℝ) (hull m e) x)
    (hY : ∀ e ∈ m.eids, ∀ x ∈ hull m e, HasFDerivWithinAt Y (Yx x • ContinuousLinearMap.fst ℝ ℝ ℝ + Yy x • ContinuousLinearMap.snd ℝ ℝ ℝ) (hull m e) x)
    (c : ∀ e ∈ m.eids, ContinuousOn Xx (hull m e) ∧ ContinuousOn Xy (hull m e) ∧ ContinuousOn Yx (hull m e) ∧ ContinuousOn Yy (hull m e)) (f : ℕ → ℝ) :
    (m.eids.map fun e => ∫ x in hull m e, (X x * gradX m (tpoly m e) f + Y x * gradY m (tpoly m e) f + (Xx x + Yy x) * lin m e f x)).sum =
      (m.ekeys.map fun k => if (m.edge k).trias.length = 1 then ((m.edge k).trias.map fun e => sg (sarea m [[k.1], [k.2], corners m e]) * sideFlow m X Y f k.1 k.2).sum else 0).sum := by
  rw [← flux_boundary w hp hg (sideFlow_swap X Y f)]
  exact congrArg List.sum (List.map_congr_left fun e he => tri_parts w hp hg he (hX e he) (hY e he) (c e he).1 (c e he).2.1 (c e he).2.2.1 (c e he).2.2.2 f)

end Meshless
