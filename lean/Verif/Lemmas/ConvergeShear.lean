import Verif.Lemmas.Converge

/-! Consistency of the shear part, and of the whole stiffness matrix, against all displacements. -/

set_option autoImplicit false

namespace Meshless
open Spec Finset MeasureTheory

section
variable {m m' : Mesh} (h : SameStatic m m')
include h

theorem SameStatic.stpoly : tpoly m' = tpoly m := by funext e; simp only [tpoly, h.tria]
theorem SameStatic.sdsg : dsg m' = dsg m := by funext z P Q R; simp only [dsg, gap, h.ssarea, h.sdisp, h.snx, h.sny]
theorem SameStatic.swhole : wholeGamma m' = wholeGamma m := by funext e z; simp only [wholeGamma, h.sdsg, h.tria, h.ssarea, h.stpoly]
theorem SameStatic.srotSum : rotSum m' = rotSum m := by funext e z r; simp only [rotSum, h.scorners, h.sdisp]
theorem SameStatic.scell : cellStrain m' = cellStrain m := by
  funext e z r; simp only [cellStrain, cellGamma, h.stpoly, h.scorners, h.ssarea, h.sdsg, h.striArea, h.srotSum]
theorem SameStatic.scavg : cavg m' = cavg m := by funext pn e sel; simp only [cavg, h.tria, h.scorners, h.prop]
theorem SameStatic.smod : shearMod m' = shearMod m := by funext pn al fa e r; simp only [shearMod, h.scavg, h.scharLen]
theorem SameStatic.sshear : shearEnergy m' = shearEnergy m := by funext pn al fa g v u; simp only [shearEnergy, h.eids, h.striArea, h.smod]

end

/-- shear strains of a method of `calc_k0_shear` -/
noncomputable def methodGamma (m : Mesh) (method : String) : ℕ → (ℕ → ℝ) → Fin 2 → ℝ := if method = "cell-based" then cellStrain m else wholeGamma m

section
variable {m : Mesh} {e : ℕ}

/-- sum of the sizes of the rotation sums -/
noncomputable def rotSumAbs (m : Mesh) (e : ℕ) (v : ℕ → ℝ) : ℝ := ∑ r, |rotSum m e v r|

theorem rotSumAbs_nonneg (v : ℕ → ℝ) : 0 ≤ rotSumAbs m e v := Finset.sum_nonneg fun _ _ => abs_nonneg _

/-- a bound for the distance of the shear strains of a displacement from those of its linear interpolation -/
theorem method_test (w : WF m) (hp : Proper m) (hg : Planar m) (he : e ∈ m.eids) {s h : ℝ} (hs : Shape m s) (hh : Size m h) (method : String) (v : ℕ → ℝ) {x : ℝ × ℝ} (hx : x ∈ hull m e) (r : Fin 2) :
    |methodGamma m method e v r - linShear m e v x r| ≤ (3 * s * h + if method = "cell-based" then sixthErr else 0) * (rotAbs m e v + rotSumAbs m e v) := by
  have h1 := rotAbs_nonneg (m := m) (e := e) v
  have h2 := rotSumAbs_nonneg (m := m) (e := e) v
  have h3 := shape_nonneg hg hs he
  have h4 := size_nonneg hh he
  have h5 : rotAbs m e v * s * charLen m false e ≤ s * h * rotAbs m e v := by
    have := mul_le_mul_of_nonneg_left (hh e he) (mul_nonneg h1 h3)
    linarith
  have h6 : 0 ≤ s * h * rotSumAbs m e v := by positivity
  have h7 : 0 ≤ s * h * rotAbs m e v := by positivity
  unfold methodGamma
  split_ifs with hc
  · have h8 := cell_test w hp hg he hs v hx r
    have h9 : |rotSum m e v r| ≤ rotSumAbs m e v := Finset.single_le_sum (f := fun r => |rotSum m e v r|) (fun _ _ => abs_nonneg _) (mem_univ r)
    have h10 := sixthErr_eq.1
    have e1 : cellStrain m e v r - linShear m e v x r = (cellGamma m e v r - linShear m e v x r) + sixthErr * rotSum m e v r := by unfold cellStrain; ring
    rw [e1]
    refine (abs_add_le _ _).trans ?_
    rw [abs_mul, abs_of_pos h10]
    have h11 := mul_le_mul_of_nonneg_left h9 h10.le
    have h12 : 0 ≤ sixthErr * rotAbs m e v := by positivity
    linarith
  · have h8 := whole_test w hp hg he hs v hx r
    linarith

theorem method_near (w : WF m) (hg : Planar m) (he : e ∈ m.eids) {F Fx Fy : ℕ → ℝ × ℝ → ℝ} {S M : ℝ} (hM : 0 ≤ M) {s h : ℝ} (hs : Shape m s) (hh : Size m h) (hF : SmoothField m F Fx Fy S M) {z : ℕ → ℝ} (hz : Nodal m F z)
    (method : String) {x : ℝ × ℝ} (hx : x ∈ hull m e) (r : Fin 2) :
    |methodGamma m method e z r - shear F Fx Fy x r| ≤ 12 * (M + S) * s * h + 3 * (if method = "cell-based" then sixthErr else 0) * S := by
  have h3 := shape_nonneg hg hs he
  have hS := S_nonneg he hF hx
  have hc := mul_le_mul_of_nonneg_left (hh e he) (by positivity : 0 ≤ (M + S) * s)
  have h4 := mul_nonneg (by positivity : 0 ≤ (M + S) * s) (size_nonneg hh he)
  unfold methodGamma
  split_ifs
  · exact (strain_near w (flat_of hg) he hM hs hF hz hx r).trans (by linarith)
  · exact (whole_near w (flat_of hg) he hM hs hF hz hx r).trans (by linarith)

theorem stiff_bound {l : ℕ → ℝ × ℝ → Lam} {L0 L1 : ℝ} (hl : SmoothLam m l L0 L1) (he : e ∈ m.eids) {x : ℝ × ℝ} (hx : x ∈ hull m e) (r : Fin 2) : |shearStiff (l e x) r| ≤ L0 ^ 2 := by
  obtain ⟨d1, d2, d3, d4⟩ := shear_lamData
  have b := fun sel hsel => hl.bound e he x hx sel hsel
  unfold shearStiff
  split_ifs <;> rw [abs_mul, pow_two]
  · exact mul_le_mul (b (fun l => l.k23) (by assumption)) (b (fun l => l.E 0 0) (by assumption)) (abs_nonneg _) ((abs_nonneg _).trans (b (fun l => l.k23) (by assumption)))
  · exact mul_le_mul (b (fun l => l.k13) (by assumption)) (b (fun l => l.E 1 1) (by assumption)) (abs_nonneg _) ((abs_nonneg _).trans (b (fun l => l.k13) (by assumption)))

theorem stiff_cont {l : ℕ → ℝ × ℝ → Lam} {L0 L1 : ℝ} (hl : SmoothLam m l L0 L1) (he : e ∈ m.eids) (r : Fin 2) : ContinuousOn (fun x => shearStiff (l e x) r) (hull m e) := by
  obtain ⟨d1, d2, d3, d4⟩ := shear_lamData
  unfold shearStiff
  split_ifs
  · exact (lam_cont hl he (sel := fun l => l.k23) (by assumption)).mul (lam_cont hl he (sel := fun l => l.E 0 0) (by assumption))
  · exact (lam_cont hl he (sel := fun l => l.k13) (by assumption)).mul (lam_cont hl he (sel := fun l => l.E 1 1) (by assumption))

theorem linShear_cont (v : ℕ → ℝ) (r : Fin 2) : Continuous fun x => linShear m e v x r := by
  have h3 := lin_cont (m := m) (e := e) (disp m v 3)
  have h4 := lin_cont (m := m) (e := e) (disp m v 4)
  unfold linShear
  fin_cases r
  · exact continuous_const.add h3
  · exact continuous_const.add h4

/-- sum of the sizes of the shear strains -/
noncomputable def gammaAbs (m : Mesh) (method : String) (e : ℕ) (v : ℕ → ℝ) : ℝ := ∑ r, |methodGamma m method e v r|

/-- transverse shear energy product against the virtual work of the shear forces -/
theorem shear_test (w : WF m) (hp : Proper m) (hg : Planar m) {pn : Bool} {s h : ℝ} (hs : Shape m s) (hh : Size m h) {l : ℝ × ℝ → Lam} {L0 L1 : ℝ} (hL1 : 0 ≤ L1)
    (hl : SmoothLam m (fun _ => l) L0 L1) (ha : Assigned m pn fun _ => l) {F Fx Fy : ℕ → ℝ × ℝ → ℝ} {S M : ℝ} (hM : 0 ≤ M) (hF : SmoothField m F Fx Fy S M) {z : ℕ → ℝ} (hz : Nodal m F z)
    {tau al : ℝ} (htau : 0 < tau) (ht : ThickAtLeast m (fun _ => l) tau) (hal : 0 ≤ al) (fa : Bool) (method : String) (v : ℕ → ℝ) {a b : ℝ} (hab : a = if method = "cell-based" then sixthErr else 0)
    (hb : b = L0 ^ 2 * (12 * (M + S) * s * h + 3 * a * S) + 2 * S * (al * h ^ 2 / tau ^ 2 * L0 ^ 2 + 2 * L0 * (L1 * h))) :
    |shearEnergy m pn al fa (methodGamma m method) z v - (m.eids.map fun e => ∫ x in hull m e, ∑ r, shear F Fx Fy x r * shearStiff (l x) r * linShear m e v x r).sum| ≤
      (m.eids.map fun e => triArea m e * (b * gammaAbs m method e v + 4 * S * L0 ^ 2 * (3 * s * h + a) * (rotAbs m e v + rotSumAbs m e v))).sum := by
  unfold shearEnergy
  refine list_near fun e he => ?_
  refine integral_near ?_ fun x hx => ?_
  · exact continuousOn_finsetSum _ fun r _ => ((shear_cont he hF r).mul (stiff_cont hl he r)).mul (linShear_cont v r).continuousOn
  · have key : ∀ r, |methodGamma m method e z r * shearMod m pn al fa e r * methodGamma m method e v r - shear F Fx Fy x r * shearStiff (l x) r * linShear m e v x r| ≤
        b * |methodGamma m method e v r| + 2 * S * L0 ^ 2 * ((3 * s * h + a) * (rotAbs m e v + rotSumAbs m e v)) := by
      intro r
      obtain ⟨m1, m2⟩ := mod_near hh hL1 hl ha he hx htau ht hal fa r
      have n1 := method_near w hg he hM hs hh hF hz method hx r
      have n2 := method_test w hp hg he hs hh method v hx r
      rw [← hab] at n1 n2
      have n3 := prod2_near n1 (shear_bound he hF hx r) m1 m2
      have n4 : |shear F Fx Fy x r * shearStiff (l x) r| ≤ 2 * S * L0 ^ 2 := by
        rw [abs_mul]
        exact mul_le_mul (shear_bound he hF hx r) (stiff_bound hl he hx r) (abs_nonneg _) ((abs_nonneg _).trans (shear_bound he hF hx r))
      rw [← hb] at n3
      rw [show methodGamma m method e z r * shearMod m pn al fa e r * methodGamma m method e v r - shear F Fx Fy x r * shearStiff (l x) r * linShear m e v x r =
        (methodGamma m method e z r * shearMod m pn al fa e r - shear F Fx Fy x r * shearStiff (l x) r) * methodGamma m method e v r +
        shear F Fx Fy x r * shearStiff (l x) r * (methodGamma m method e v r - linShear m e v x r) by ring]
      refine (abs_add_le _ _).trans ?_
      rw [abs_mul, abs_mul]
      exact add_le_add (mul_le_mul_of_nonneg_right n3 (abs_nonneg _)) (mul_le_mul n4 n2 (abs_nonneg _) ((abs_nonneg _).trans n4))
    have k0 := key 0
    have k1 := key 1
    unfold gammaAbs
    rw [Fin.sum_univ_two, Fin.sum_univ_two]
    rw [abs_le] at *
    constructor <;> linarith [k0.1, k0.2, k1.1, k1.2]

theorem virtualWork_split {l : ℝ × ℝ → Lam} {L0 L1 : ℝ} (hl : SmoothLam m (fun _ => l) L0 L1) {F Fx Fy : ℕ → ℝ × ℝ → ℝ} {S M : ℝ} (hF : SmoothField m F Fx Fy S M) (v : ℕ → ℝ) :
    virtualWork m l F Fx Fy v = (m.eids.map fun e => ∫ x in hull m e, ∑ q, force l Fx Fy x q * triEps m e v q).sum +
      (m.eids.map fun e => ∫ x in hull m e, ∑ r, shear F Fx Fy x r * shearStiff (l x) r * linShear m e v x r).sum := by
  unfold virtualWork
  rw [← List.sum_map_add]
  congr 1
  refine List.map_congr_left fun e he => ?_
  have c1 : ContinuousOn (fun x => ∑ q, force l Fx Fy x q * triEps m e v q) (hull m e) := by
    refine continuousOn_finsetSum _ fun q _ => ContinuousOn.mul ?_ continuousOn_const
    exact continuousOn_finsetSum _ fun p _ => (strain_cont hF he p).mul (lam_cont hl he (abd_lamData p q))
  have c2 : ContinuousOn (fun x => ∑ r, shear F Fx Fy x r * shearStiff (l x) r * linShear m e v x r) (hull m e) :=
    continuousOn_finsetSum _ fun r _ => ((shear_cont he hF r).mul (stiff_cont hl he r)).mul (linShear_cont v r).continuousOn
  rw [← integral_add (c1.integrableOn_compact (hull_compact m e)) (c2.integrableOn_compact (hull_compact m e))]
  congr 1
  funext x
  rw [quad_force]
  rfl

/-- all that is tested -/
noncomputable def testAbs (m : Mesh) (method : String) (e : ℕ) (v : ℕ → ℝ) : ℝ := triAbs m e v + gammaAbs m method e v + rotAbs m e v + rotSumAbs m e v

theorem triAbs_nonneg (v : ℕ → ℝ) : 0 ≤ triAbs m e v := Finset.sum_nonneg fun _ _ => abs_nonneg _
theorem gammaAbs_nonneg (method : String) (v : ℕ → ℝ) : 0 ≤ gammaAbs m method e v := Finset.sum_nonneg fun _ _ => abs_nonneg _

/-- energy product of the nodal values of a field with any displacement against the virtual work -/
theorem energy_shear_test (w : WF m) (hp : Proper m) (hg : Planar m) {pn : Bool} {s h : ℝ} (hs : Shape m s) (hh : Size m h) {l : ℝ × ℝ → Lam} {L0 L1 : ℝ} (hL1 : 0 ≤ L1)
    (hl : SmoothLam m (fun _ => l) L0 L1) (ha : Assigned m pn fun _ => l) {F Fx Fy : ℕ → ℝ × ℝ → ℝ} {S M : ℝ} (hM : 0 ≤ M) (hF : SmoothField m F Fx Fy S M) {z : ℕ → ℝ} (hz : Nodal m F z)
    {tau al : ℝ} (htau : 0 < tau) (ht : ThickAtLeast m (fun _ => l) tau) (hal : 0 ≤ al) (fa : Bool) (method : String) (v : ℕ → ℝ) {a : ℝ} (hab : a = if method = "cell-based" then sixthErr else 0)
    {ρ : ℝ} (h1 : 6 * (L0 * (2 * ((2 * s + 1) * M * h)) + 2 * S * (2 * L1 * h)) + 6 * (L0 * (2 * (M * h)) + 2 * S * (L1 * h)) ≤ ρ)
    (h2 : L0 ^ 2 * (12 * (M + S) * s * h + 3 * a * S) + 2 * S * (al * h ^ 2 / tau ^ 2 * L0 ^ 2 + 2 * L0 * (L1 * h)) ≤ ρ) (h3 : 4 * S * L0 ^ 2 * (3 * s * h + a) ≤ ρ) :
    |energy m pn z v + shearEnergy m pn al fa (methodGamma m method) z v - virtualWork m l F Fx Fy v| ≤ ρ * (m.eids.map fun e => triArea m e * testAbs m method e v).sum := by
  have b1 := energy_test w hp hg hs hh hL1 hl ha hM hF hz v
  have b2 := shear_test w hp hg hs hh hL1 hl ha hM hF hz htau ht hal fa method v hab rfl
  rw [virtualWork_split hl hF]
  have h0 : 0 ≤ (m.eids.map fun e => triArea m e * triAbs m e v).sum := List.sum_nonneg fun y hy => by
    obtain ⟨e, _, rfl⟩ := List.mem_map.1 hy
    exact mul_nonneg (abs_nonneg _) (triAbs_nonneg v)
  have b3 := mul_le_mul_of_nonneg_right h1 h0
  have b4 : (m.eids.map fun e => triArea m e * ((L0 ^ 2 * (12 * (M + S) * s * h + 3 * a * S) + 2 * S * (al * h ^ 2 / tau ^ 2 * L0 ^ 2 + 2 * L0 * (L1 * h))) * gammaAbs m method e v +
      4 * S * L0 ^ 2 * (3 * s * h + a) * (rotAbs m e v + rotSumAbs m e v))).sum ≤ (m.eids.map fun e => triArea m e * (ρ * (testAbs m method e v - triAbs m e v))).sum := by
    refine List.sum_le_sum fun e _ => mul_le_mul_of_nonneg_left ?_ (abs_nonneg _)
    have p1 := mul_le_mul_of_nonneg_right h2 (gammaAbs_nonneg (m := m) (e := e) method v)
    have p2 := mul_le_mul_of_nonneg_right h3 (add_nonneg (rotAbs_nonneg (m := m) (e := e) v) (rotSumAbs_nonneg (m := m) (e := e) v))
    unfold testAbs
    linarith
  have e1 : ρ * (m.eids.map fun e => triArea m e * testAbs m method e v).sum = ρ * (m.eids.map fun e => triArea m e * triAbs m e v).sum +
      (m.eids.map fun e => triArea m e * (ρ * (testAbs m method e v - triAbs m e v))).sum := by
    rw [← List.sum_map_mul_left, ← List.sum_map_mul_left, ← List.sum_map_add]
    congr 1
    exact List.map_congr_left fun e _ => by ring
  rw [e1]
  rw [abs_le] at *
  constructor <;> linarith [b1.1, b1.2, b2.1, b2.2]

end

end Meshless
