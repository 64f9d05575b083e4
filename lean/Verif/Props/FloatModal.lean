import Verif.Lemmas.NearModal
import Verif.Props.Float

/-!
C113-C114: buckling factors, modes and the limit of stability in floating-point arithmetic.
-/

set_option autoImplicit false

namespace Meshless
open Spec Finset

theorem Spec.Analysis.stiffness {m : Mesh} {pn : Bool} {method : String} {al : ℝ} {fa : Bool} {S : Set ℕ} {f : ℕ → ℝ} {K G : Mat} (h : Analysis m pn method al fa S f K G) :
    Stiffness m pn method al fa K ∧ ∃ d : List ℝ, d.length = K.dim ∧ StaticSol K S f (vec d) ∧ calcKG (calcK0 m pn).1 d pn = .ok G :=
  ⟨⟨h.1, h.2.1⟩, h.2.2⟩

section
variable {m0 : Mesh} (hr : Reachable m0) (ops : List Op) {pn : Bool} (hg : GoodPlate (run m0 ops) pn) {method : String} {al : ℝ} (hal : 0 ≤ al) {fa : Bool}
  {S : Set ℕ} {f : ℕ → ℝ} {K G : Mat} (ha : Analysis (run m0 ops) pn method al fa S f K G) (hS : Stable K S)
include hr hg hal ha hS

/-- both matrices of a computed analysis are accurate; the analysis can be carried out -/
theorem analysis_near (c : ℝ) (hc : 0 ≤ c) : ∃ C u0 : ℝ, 0 ≤ C ∧ 0 < u0 ∧ ∀ R : Rounding, R.u ≤ u0 →
    (∃ F G', FlAnalysis R (R.run m0 ops) pn method al fa S f c F G') ∧
    ∀ F G', FlAnalysis R (R.run m0 ops) pn method al fa S f c F G' → F.dim = K.dim ∧ G'.dim = K.dim ∧
      (∀ i < K.dim, ∀ j < K.dim, |F.get i j - K.get i j| ≤ C * R.u) ∧ ∀ i < K.dim, ∀ j < K.dim, |G'.get i j - G.get i j| ≤ C * R.u := by
  obtain ⟨hK, d, hl, hd, hG⟩ := ha.stiffness
  have hr' := hr.run ops
  obtain ⟨K0, h0, _⟩ := hK.assembled
  obtain ⟨_, _, hh, _⟩ := calcK0_ok hr'.wf h0
  have ht := thickFor_of hr'.wf hg.proper hg.planar hh (fun l h => (hg.shear l h).1) method
  have hGd : G.dim = K.dim := by
    obtain ⟨h1, _⟩ := calcKG_sum hG
    obtain ⟨h2, _⟩ := stiffness_energy hr' hg hK
    rw [h1, hl, h2]; omega
  obtain ⟨C1, u1, hu1, h1⟩ := C108_assembled hr ops hg.proper hg.planar ht hal hK.assembled
  obtain ⟨C2, u2, hu2, h2⟩ := C110_prestress hr ops hg.proper hg.planar ht hal hK.assembled hS hl hd hG c
  obtain ⟨C3, u3, hu3, h3⟩ := C109_static hr ops hg.proper hg.planar ht hal hK.assembled hS hd c
  refine ⟨|C1| + |C2|, min u1 (min u2 u3), by positivity, lt_min hu1 (lt_min hu2 hu3), fun R hR => ?_⟩
  have hR1 := hR.trans (min_le_left _ _)
  have hR2 := hR.trans ((min_le_right _ _).trans (min_le_left _ _))
  have hR3 := hR.trans ((min_le_right _ _).trans (min_le_right _ _))
  have hu := R.u_nonneg
  have b1 : C1 * R.u ≤ (|C1| + |C2|) * R.u := mul_le_mul_of_nonneg_right ((le_abs_self _).trans (by linarith [abs_nonneg C2])) hu
  have b2 : C2 * R.u ≤ (|C1| + |C2|) * R.u := mul_le_mul_of_nonneg_right ((le_abs_self _).trans (by linarith [abs_nonneg C1])) hu
  constructor
  · obtain ⟨F, f1, f2, f3, _⟩ := h3 R hR3
    obtain ⟨d', d1, _⟩ := f3 f
    have hv : ∀ i < F.dim, vec ((List.range F.dim).map d') i = d' i := by
      intro i hi
      simp [vec, List.getD, hi]
    have hsol : SolvedUpTo F S f (vec ((List.range F.dim).map d')) (c * R.u) := by
      refine ⟨fun i hi h => by rw [hv i hi]; exact d1.1 i hi h, fun i hi h => ?_⟩
      rw [Finset.sum_congr rfl fun j hj => by rw [hv j (Finset.mem_range.1 hj)], d1.2 i hi h, sub_self, abs_zero]
      exact mul_nonneg (mul_nonneg hc hu) (add_nonneg (Finset.sum_nonneg fun _ _ => mul_nonneg (abs_nonneg _) (abs_nonneg _)) (abs_nonneg _))
    have hff : ∀ i : ℕ, |f i - f i| ≤ c * R.u := fun i => by rw [sub_self, abs_zero]; exact mul_nonneg hc hu
    obtain ⟨G', g1, _⟩ := h2 R hR2 F f1 f _ (by simp) (fun i _ => hff i) hsol
    exact ⟨F, G', f1, f, _, by simp, fun i _ => hff i, hsol, g1⟩
  · rintro F G' ⟨f1, f', d', e1, e2, e3, e4⟩
    obtain ⟨F', g1, g2, g3⟩ := h1 R hR1
    obtain rfl := flAssembled_fun f1 g1
    obtain ⟨G'', k1, k2, k3⟩ := h2 R hR2 F f1 f' d' e1 (by rw [← g2]; exact e2) e3
    rw [e4] at k1
    cases k1
    rw [hGd] at k2 k3
    exact ⟨g2, k2, fun i hi j hj => (g3 i hi j hj).trans b1, fun i hi j hj => (k3 i hi j hj).trans b2⟩

/-! ### C113: factors and modes -/

/-- C113: every computed factor of bounded size, and its mode, are within a constant times the unit roundoff of an exact factor, which is real, and of an
exact mode of this factor -/
theorem C113_factors (c L : ℝ) (hc : 0 ≤ c) : ∃ C u0 : ℝ, 0 < u0 ∧ ∀ R : Rounding, R.u ≤ u0 →
    (∃ F G', FlAnalysis R (R.run m0 ops) pn method al fa S f c F G') ∧
    ∀ F G', FlAnalysis R (R.run m0 ops) pn method al fa S f c F G' → ∀ (l : ℂ) (x : ℕ → ℂ), ‖l‖ ≤ L → ModeUpTo F G' S l x (c * R.u) →
      ∃ (l' : ℝ) (y : ℕ → ℂ), ComplexMode K G S l' y ∧ ‖l - l'‖ ≤ C * R.u ∧ ∀ i < K.dim, ‖x i - y i‖ ≤ C * R.u * ∑ j ∈ range K.dim, ‖x j‖ := by
  obtain ⟨C1, u1, hC1, hu1, hnear⟩ := analysis_near hr ops hg hal ha hS c hc
  obtain ⟨hK, d, hl, hd, hG⟩ := ha.stiffness
  obtain ⟨C, u0, hu0, h⟩ := near_factors (C78_symmetric (hr.run ops) hg hK) (fun i _ j _ => (C30_symmetric hG).1 i j) hS L hc hC1
  refine ⟨C, min u1 u0, lt_min hu1 hu0, fun R hR => ⟨(hnear R (hR.trans (min_le_left _ _))).1, fun F G' hF => ?_⟩⟩
  exact h R.u R.u_nonneg R.u_lt.le (hR.trans (min_le_right _ _)) F G' ((hnear R (hR.trans (min_le_left _ _))).2 F G' hF)

/-- C113 for real factors and modes: the exact mode is real, too -/
theorem C113_real (c L : ℝ) (hc : 0 ≤ c) : ∃ C u0 : ℝ, 0 < u0 ∧ ∀ R : Rounding, R.u ≤ u0 →
    ∀ F G', FlAnalysis R (R.run m0 ops) pn method al fa S f c F G' → ∀ (l : ℝ) (x : ℕ → ℝ), |l| ≤ L → ModeUpTo F G' S l (fun i => (x i : ℂ)) (c * R.u) →
      ∃ (l' : ℝ) (y : ℕ → ℝ), BucklingMode K G S l' y ∧ |l - l'| ≤ C * R.u ∧ ∀ i < K.dim, |x i - y i| ≤ C * R.u * ∑ j ∈ range K.dim, |x j| := by
  obtain ⟨C1, u1, hC1, hu1, hnear⟩ := analysis_near hr ops hg hal ha hS c hc
  obtain ⟨hK, d, hl, hd, hG⟩ := ha.stiffness
  obtain ⟨C, u0, hu0, h⟩ := near_real (C78_symmetric (hr.run ops) hg hK) (fun i _ j _ => (C30_symmetric hG).1 i j) hS L hc hC1
  exact ⟨C, min u1 u0, lt_min hu1 hu0, fun R hR F G' hF => h R.u R.u_nonneg R.u_lt.le (hR.trans (min_le_right _ _)) F G'
    ((hnear R (hR.trans (min_le_left _ _))).2 F G' hF)⟩

/-- C113, converse: every exact factor and mode of bounded size solves the computed equations up to a residual of a constant times the unit roundoff -/
theorem C113_found (c L : ℝ) (hc : 0 ≤ c) : ∃ C u0 : ℝ, 0 < u0 ∧ ∀ R : Rounding, R.u ≤ u0 →
    ∀ F G', FlAnalysis R (R.run m0 ops) pn method al fa S f c F G' → ∀ (l : ℂ) (x : ℕ → ℂ), ‖l‖ ≤ L → ComplexMode K G S l x → ModeUpTo F G' S l x (C * R.u) := by
  obtain ⟨C1, u1, hC1, hu1, hnear⟩ := analysis_near hr ops hg hal ha hS c hc
  obtain ⟨C, u0, hu0, h⟩ := near_found (G := G) hS L hC1
  exact ⟨C, min u1 u0, lt_min hu1 hu0, fun R hR F G' hF => h R.u R.u_nonneg (hR.trans (min_le_right _ _)) F G'
    ((hnear R (hR.trans (min_le_left _ _))).2 F G' hF)⟩

/-! ### C114: the limit of stability -/

/-- C114: let `c1` be the first positive buckling factor. For load levels below `c1` by more than a constant times the unit roundoff the computed matrix
`F + t G'` is positive definite on the supported displacements; above `c1` by more than that it is not. -/
theorem C114_limit (c L : ℝ) (hc : 0 ≤ c) {c1 : ℝ} (hc1 : 0 < c1) {y : ℕ → ℝ} (hy : BucklingMode K G S c1 y) (hmin : ∀ c' x, 0 < c' → BucklingMode K G S c' x → c1 ≤ c') :
    ∃ C u0 : ℝ, 0 < u0 ∧ ∀ R : Rounding, R.u ≤ u0 → ∀ F G', FlAnalysis R (R.run m0 ops) pn method al fa S f c F G' → F.dim = K.dim ∧
      (∀ t, 0 ≤ t → t < c1 - C * R.u → ∀ v, Supported F.dim S v → (∃ i < F.dim, v i ≠ 0) → 0 < form F.dim (fun i j => F.get i j + t * G'.get i j) v v) ∧
      ∀ t, c1 + C * R.u < t → t ≤ L → ∃ v, Supported F.dim S v ∧ form F.dim (fun i j => F.get i j + t * G'.get i j) v v < 0 := by
  obtain ⟨C1, u1, hC1, hu1, hnear⟩ := analysis_near hr ops hg hal ha hS c hc
  obtain ⟨hK, d, hl, hd, hG⟩ := ha.stiffness
  obtain ⟨C, h⟩ := near_limit (C78_symmetric (hr.run ops) hg hK) (fun i _ j _ => (C30_symmetric hG).1 i j) hS L hC1 hc1 hy hmin
  refine ⟨C, u1, hu1, fun R hR F G' hF => ?_⟩
  have hn := (hnear R hR).2 F G' hF
  exact ⟨hn.1, h R.u R.u_nonneg F G' hn⟩

end

/-- C113, C114: the square with its left side clamped and shortened in `x`: the hypotheses hold, there is a first factor -/
example : ∃ K G f c1 y, Analysis exSq false "cell-based" (1 / 5) true {x | x < 5 ∨ 15 ≤ x} f K G ∧ 0 < c1 ∧ BucklingMode K G {x | x < 5 ∨ 15 ≤ x} c1 y ∧
    ∃ C u0 : ℝ, 0 < u0 ∧ ∀ R : Rounding, R.u ≤ u0 → ∃ F G', FlAnalysis R (R.run exRead sqOps) false "cell-based" (1 / 5) true {x | x < 5 ∨ 15 ≤ x} f 10 F G' ∧
      (∀ (l : ℂ) (x : ℕ → ℂ), ‖l‖ ≤ 1000 → ModeUpTo F G' {x | x < 5 ∨ 15 ≤ x} l x (10 * R.u) →
        ∃ (l' : ℝ) (z : ℕ → ℂ), ComplexMode K G {x | x < 5 ∨ 15 ≤ x} l' z ∧ ‖l - l'‖ ≤ C * R.u) := by
  obtain ⟨K, hK⟩ := exSq_stiffness (Or.inl rfl) false (1 / 5) true
  obtain ⟨G, hG, hw⟩ := exSq_work false (-1)
  have hS := held_stable (exMesh_reachable ..) (exSq_good false) (by norm_num) hK exSq_held
  obtain ⟨hdim, _⟩ := stiffness_energy (exMesh_reachable ..) (exSq_good false) hK
  rw [exMesh_nids] at hdim
  have hd20 : K.dim = 20 := hdim
  have hz : Supported K.dim {x | x < 5 ∨ 15 ≤ x} exSlope := by
    intro i _ hi
    simp only [Set.mem_ofPred_eq] at hi
    unfold exSlope
    rw [if_neg]; omega
  have hsup : Supported K.dim {x | x < 5 ∨ 15 ≤ x} (vec exPress) := by
    intro i h20 hi
    rw [hd20] at h20
    simp only [Set.mem_ofPred_eq] at hi
    interval_cases i <;> first | rfl | omega
  obtain ⟨c1, hc1, ⟨y, hy⟩, hmin, _⟩ := C86_first (exMesh_reachable ..) (exSq_good false) hK hS hG hz (by rw [hd20, hw]; norm_num)
  have ha : Analysis exSq false "cell-based" (1 / 5) true {x | x < 5 ∨ 15 ≤ x} (fun i => ∑ j ∈ range K.dim, K.get i j * vec exPress j) K G :=
    ⟨Or.inl rfl, hK.assembled, exPress, by rw [hd20]; rfl, ⟨hsup, fun _ _ _ => rfl⟩, hG⟩
  refine ⟨K, G, _, c1, y, ha, hc1, hy, ?_⟩
  obtain ⟨C, u0, hu, h⟩ := C113_factors exRead_reachable sqOps (exSq_good false) (by norm_num) ha hS 10 1000 (by norm_num)
  refine ⟨C, u0, hu, fun R hR => ?_⟩
  obtain ⟨F, G', hF⟩ := (h R hR).1
  refine ⟨F, G', hF, fun l x hl hx => ?_⟩
  obtain ⟨l', z, h1, h2, _⟩ := (h R hR).2 F G' hF l x hl hx
  exact ⟨l', z, h1, h2⟩

example : ∃ K G f, Analysis exSq false "cell-based" (1 / 5) true {x | x < 5 ∨ 15 ≤ x} f K G ∧ ∃ c1, 0 < c1 ∧ ∃ C u0 : ℝ, 0 < u0 ∧ ∀ R : Rounding, R.u ≤ u0 → ∀ F G',
    FlAnalysis R (R.run exRead sqOps) false "cell-based" (1 / 5) true {x | x < 5 ∨ 15 ≤ x} f 10 F G' → F.dim = K.dim ∧
      (∀ t, 0 ≤ t → t < c1 - C * R.u → ∀ v, Supported F.dim {x | x < 5 ∨ 15 ≤ x} v → (∃ i < F.dim, v i ≠ 0) → 0 < form F.dim (fun i j => F.get i j + t * G'.get i j) v v) ∧
      ∀ t, c1 + C * R.u < t → t ≤ 1000 → ∃ v, Supported F.dim {x | x < 5 ∨ 15 ≤ x} v ∧ form F.dim (fun i j => F.get i j + t * G'.get i j) v v < 0 := by
  obtain ⟨K, hK⟩ := exSq_stiffness (Or.inl rfl) false (1 / 5) true
  obtain ⟨G, hG, hw⟩ := exSq_work false (-1)
  have hS := held_stable (exMesh_reachable ..) (exSq_good false) (by norm_num) hK exSq_held
  obtain ⟨hdim, _⟩ := stiffness_energy (exMesh_reachable ..) (exSq_good false) hK
  rw [exMesh_nids] at hdim
  have hd20 : K.dim = 20 := hdim
  have hz : Supported K.dim {x | x < 5 ∨ 15 ≤ x} exSlope := by
    intro i _ hi
    simp only [Set.mem_ofPred_eq] at hi
    unfold exSlope
    rw [if_neg]; omega
  have hsup : Supported K.dim {x | x < 5 ∨ 15 ≤ x} (vec exPress) := by
    intro i h20 hi
    rw [hd20] at h20
    simp only [Set.mem_ofPred_eq] at hi
    interval_cases i <;> first | rfl | omega
  obtain ⟨c1, hc1, ⟨y, hy⟩, hmin, _⟩ := C86_first (exMesh_reachable ..) (exSq_good false) hK hS hG hz (by rw [hd20, hw]; norm_num)
  have ha : Analysis exSq false "cell-based" (1 / 5) true {x | x < 5 ∨ 15 ≤ x} (fun i => ∑ j ∈ range K.dim, K.get i j * vec exPress j) K G :=
    ⟨Or.inl rfl, hK.assembled, exPress, by rw [hd20]; rfl, ⟨hsup, fun _ _ _ => rfl⟩, hG⟩
  exact ⟨K, G, _, ha, c1, hc1, C114_limit exRead_reachable sqOps (exSq_good false) (by norm_num) ha hS 10 1000 (by norm_num) hc1 hy hmin⟩

end Meshless
