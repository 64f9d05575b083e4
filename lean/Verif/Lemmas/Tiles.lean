import Verif.Lemmas.ConsistShear
import Verif.Lemmas.ConsistKG

/-! Integrals over a plate filled by triangles; fields and laminates on a plate seen from its triangles. -/

set_option autoImplicit false

namespace Meshless
open Spec Finset MeasureTheory

theorem hull_measurable (m : Mesh) (e : ℕ) : MeasurableSet (hull m e) := (hull_compact m e).measurableSet

theorem hull_real (m : Mesh) (e : ℕ) : volume.real (hull m e) = triArea m e := by
  rw [Measure.real, hull_measure, ENNReal.toReal_ofReal (show 0 ≤ triArea m e from abs_nonneg _)]

/-- the union of the triangles in a list -/
def filled (m : Mesh) (es : List ℕ) : Set (ℝ × ℝ) := {x | ∃ e ∈ es, x ∈ hull m e}

theorem filled_cons (m : Mesh) (e : ℕ) (es : List ℕ) : filled m (e :: es) = hull m e ∪ filled m es := by
  ext x; simp [filled]

theorem filled_compact (m : Mesh) (es : List ℕ) : IsCompact (filled m es) := by
  induction es with
  | nil => simp [filled]
  | cons e es ih => rw [filled_cons]; exact (hull_compact m e).union ih

theorem filled_le (m : Mesh) (es : List ℕ) : volume.real (filled m es) ≤ (es.map (triArea m)).sum := by
  induction es with
  | nil => simp [filled]
  | cons e es ih =>
    rw [filled_cons, List.map_cons, List.sum_cons, ← hull_real]
    exact (measureReal_union_le _ _).trans (by linarith)

theorem integral_filled {m : Mesh} {es : List ℕ} (h : (es.map (triArea m)).sum = volume.real (filled m es)) {q : ℝ × ℝ → ℝ} (hq : ∀ e ∈ es, IntegrableOn q (hull m e)) :
    IntegrableOn q (filled m es) ∧ (es.map fun e => ∫ x in hull m e, q x).sum = ∫ x in filled m es, q x := by
  induction es with
  | nil => simp [filled]
  | cons e es ih =>
    have f1 : volume (hull m e) ≠ ⊤ := (hull_compact m e).measure_lt_top.ne
    have f2 : volume (filled m es) ≠ ⊤ := (filled_compact m es).measure_lt_top.ne
    have hu := measureReal_union_add_inter (μ := volume) (s := hull m e) (t := filled m es) (filled_compact m es).measurableSet f1 f2
    have hle := filled_le m es
    rw [filled_cons, List.map_cons, List.sum_cons, ← hull_real] at h
    have hi := measureReal_nonneg (μ := volume) (s := hull m e ∩ filled m es)
    have h0 : volume.real (hull m e ∩ filled m es) = 0 := by linarith
    obtain ⟨i1, i2⟩ := ih (by linarith) (fun e he => hq e (List.mem_cons_of_mem _ he))
    have hd : AEDisjoint volume (hull m e) (filled m es) := by
      rw [AEDisjoint]
      rw [Measure.real, ENNReal.toReal_eq_zero_iff] at h0
      exact h0.resolve_right (measure_inter_ne_top_of_left_ne_top f1)
    rw [filled_cons, List.map_cons, List.sum_cons, i2, setIntegral_union₀ hd (filled_compact m es).measurableSet.nullMeasurableSet (hq e List.mem_cons_self) i1]
    exact ⟨(hq e List.mem_cons_self).union i1, rfl⟩

section
variable {m : Mesh} {Om : Set (ℝ × ℝ)}

theorem Spec.Tiles.eq (ht : Tiles m Om) : Om = filled m m.eids := Set.ext ht.cover

theorem Spec.Tiles.sub (ht : Tiles m Om) {e : ℕ} (he : e ∈ m.eids) : hull m e ⊆ Om := fun x hx => (ht.cover x).2 ⟨e, he, hx⟩

theorem Spec.Tiles.integral (ht : Tiles m Om) {q : ℝ × ℝ → ℝ} (hq : ∀ e ∈ m.eids, ContinuousOn q (hull m e)) :
    (m.eids.map fun e => ∫ x in hull m e, q x).sum = ∫ x in Om, q x := by
  have := (integral_filled (m := m) (es := m.eids) (by rw [← ht.eq]; exact ht.area) (q := q) fun e he => (hq e he).integrableOn_compact (hull_compact m e)).2
  rw [this, ← ht.eq]

variable {F Fx Fy : ℕ → ℝ × ℝ → ℝ} {S M : ℝ}

theorem Spec.FieldOn.smooth (hF : FieldOn Om F Fx Fy S M) (hs : ∀ e ∈ m.eids, hull m e ⊆ Om) : SmoothField m F Fx Fy S M :=
  ⟨fun e he r hr x hx => (hF.deriv r hr x (hs e he hx)).mono (hs e he), fun e he r hr x hx => hF.bound r hr x (hs e he hx),
    fun e he r hr x hx y hy => hF.lip r hr x (hs e he hx) y (hs e he hy)⟩

theorem Spec.LamOn.smooth {l : ℝ × ℝ → Lam} {L0 L1 : ℝ} (hl : LamOn Om l L0 L1) (hs : ∀ e ∈ m.eids, hull m e ⊆ Om) : SmoothLam m (fun _ => l) L0 L1 :=
  ⟨fun e he x hx => hl.bound x (hs e he hx), fun e he x hx y hy => hl.lip x (hs e he hx) y (hs e he hy)⟩

variable {l : ℝ × ℝ → Lam} {L0 L1 : ℝ} {D Dx Dy G Gx Gy : ℕ → ℝ × ℝ → ℝ}

theorem contEnergy_plate (ht : Tiles m Om) (hl : LamOn Om l L0 L1) (hF : FieldOn Om F Fx Fy S M) (hG : FieldOn Om G Gx Gy S M) :
    contEnergy m (fun _ => l) Fx Fy Gx Gy = plateEnergy Om l Fx Fy Gx Gy := by
  have hs := fun e (he : e ∈ m.eids) => ht.sub he
  refine ht.integral fun e he => continuousOn_finsetSum _ fun p _ => continuousOn_finsetSum _ fun q _ => ?_
  exact ((strain_cont (hF.smooth hs) he p).mul (lam_cont (hl.smooth hs) he (abd_lamData p q))).mul (strain_cont (hG.smooth hs) he q)

theorem contShear_plate (ht : Tiles m Om) (hl : LamOn Om l L0 L1) (hF : FieldOn Om F Fx Fy S M) (hG : FieldOn Om G Gx Gy S M) :
    contShear m (fun _ => l) F Fx Fy G Gx Gy = plateShear Om l F Fx Fy G Gx Gy := by
  have hs := fun e (he : e ∈ m.eids) => ht.sub he
  obtain ⟨d1, d2, d3, d4⟩ := shear_lamData
  refine ht.integral fun e he => ?_
  refine continuousOn_finsetSum _ fun r _ => ((shear_cont he (hF.smooth hs) r).mul ?_).mul (shear_cont he (hG.smooth hs) r)
  unfold shearStiff
  have hl' := hl.smooth hs
  fin_cases r
  · exact (lam_cont hl' he d1).mul (lam_cont hl' he d3)
  · exact (lam_cont hl' he d2).mul (lam_cont hl' he d4)

theorem contGeometric_plate (ht : Tiles m Om) (hl : LamOn Om l L0 L1) (hD : FieldOn Om D Dx Dy S M) (hF : FieldOn Om F Fx Fy S M) (hG : FieldOn Om G Gx Gy S M) :
    contGeometric m (fun _ => l) Dx Dy Fx Fy Gx Gy = plateGeometric Om l Dx Dy Fx Fy Gx Gy := by
  have hs := fun e (he : e ∈ m.eids) => ht.sub he
  refine ht.integral fun e he => ?_
  have cx : ∀ {F Fx Fy : ℕ → ℝ × ℝ → ℝ}, FieldOn Om F Fx Fy S M → ContinuousOn (Fx 2) (hull m e) ∧ ContinuousOn (Fy 2) (hull m e) := fun hF =>
    ⟨cont_of_lip fun x hx y hy => ((hF.smooth hs).lip e he 2 (by norm_num) x hx y hy).1, cont_of_lip fun x hx y hy => ((hF.smooth hs).lip e he 2 (by norm_num) x hx y hy).2⟩
  obtain ⟨f1, f2⟩ := cx hF
  obtain ⟨g1, g2⟩ := cx hG
  have cm : ∀ i, ContinuousOn (fun x => contMembrane (l x) Dx Dy x i) (hull m e) := fun i => by
    simp only [contMembrane_ab]
    exact continuousOn_finsetSum _ fun q _ => (lam_cont (hl.smooth hs) he (ab_lamData i q)).mul (strain_cont (hD.smooth hs) he q)
  exact ((((f1.mul (cm 0)).mul g1).add ((f1.mul (cm 2)).mul g2)).add ((f2.mul (cm 2)).mul g1)).add ((f2.mul (cm 1)).mul g2)

end

end Meshless
