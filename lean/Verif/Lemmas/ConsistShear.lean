import Verif.Lemmas.Consist
import Verif.Props.K0s

/-! Discrete shear gap strains of nodal values of smooth fields against the shear strains of the fields; stabilised moduli against the laminate's. -/

set_option autoImplicit false

namespace Meshless
open Spec Finset MeasureTheory

/-- corners of a triangle, one or all three of them -/
def Vert (m : Mesh) (e : ℕ) (P : List ℕ) : Prop := (∃ i, IsCorner m e i ∧ P = [i]) ∨ P = corners m e

theorem Vert.corner {m : Mesh} {e : ℕ} {P : List ℕ} (hP : Vert m e P) : P ≠ [] ∧ ∀ i ∈ P, IsCorner m e i := by
  rcases hP with ⟨i, hi, rfl⟩ | rfl
  · exact ⟨by simp, by simpa using hi⟩
  · refine ⟨by simp [corners], ?_⟩
    simp only [corners, List.mem_cons, List.not_mem_nil, or_false, forall_eq_or_imp, forall_eq]
    exact ⟨Or.inl rfl, Or.inr (Or.inl rfl), Or.inr (Or.inr rfl)⟩

theorem field_lip {m : Mesh} {e : ℕ} (he : e ∈ m.eids) {F Fx Fy : ℕ → ℝ × ℝ → ℝ} {S M : ℝ} (hF : SmoothField m F Fx Fy S M) {r : ℕ} (hr : r < 5) {a b : ℝ × ℝ} (ha : a ∈ hull m e)
    (hb : b ∈ hull m e) : |F r b - F r a| ≤ 2 * S * dist b a := by
  have hc := Convex.norm_image_sub_le_of_norm_hasFDerivWithin_le (f := F r) (s := hull m e) (x := a) (y := b) (C := 2 * S) (hF.deriv e he r hr) (fun x hx => by
      obtain ⟨_, h1, h2⟩ := hF.bound e he r hr x hx
      have n1 : ‖(Fx r x) • ContinuousLinearMap.fst ℝ ℝ ℝ‖ ≤ |Fx r x| := by
        rw [norm_smul, Real.norm_eq_abs]
        exact mul_le_of_le_one_right (abs_nonneg _) (ContinuousLinearMap.opNorm_le_bound _ zero_le_one fun z => by rw [one_mul]; exact norm_fst_le z)
      have n2 : ‖(Fy r x) • ContinuousLinearMap.snd ℝ ℝ ℝ‖ ≤ |Fy r x| := by
        rw [norm_smul, Real.norm_eq_abs]
        exact mul_le_of_le_one_right (abs_nonneg _) (ContinuousLinearMap.opNorm_le_bound _ zero_le_one fun z => by rw [one_mul]; exact norm_snd_le z)
      linarith [norm_add_le ((Fx r x) • ContinuousLinearMap.fst ℝ ℝ ℝ) ((Fy r x) • ContinuousLinearMap.snd ℝ ℝ ℝ)])
    (convex_convexHull ℝ _) ha hb
  rw [Real.norm_eq_abs, ← dist_eq_norm] at hc
  exact hc

section
variable {m : Mesh} {e : ℕ} {F Fx Fy : ℕ → ℝ × ℝ → ℝ} {S M : ℝ} {z : ℕ → ℝ} {P Q R : List ℕ} {x : ℝ × ℝ}

theorem corner_nid (w : WF m) (he : e ∈ m.eids) {i : ℕ} (hi : IsCorner m e i) : i ∈ m.nids :=
  w.corner_mem he (by rcases hi with rfl | rfl | rfl <;> simp [corners])

theorem S_nonneg (he : e ∈ m.eids) (hF : SmoothField m F Fx Fy S M) (hx : x ∈ hull m e) : 0 ≤ S := (abs_nonneg _).trans (hF.bound e he 0 (by norm_num) x hx).1

theorem mean_taylor (w : WF m) (he : e ∈ m.eids) (hM : 0 ≤ M) (hF : SmoothField m F Fx Fy S M) (hz : Nodal m F z) (hP : Vert m e P) (hx : x ∈ hull m e) {r : ℕ} (hr : r < 5) :
    |mean (disp m z r) P - F r x - (Fx r x * (mean (nx m) P - x.1) + Fy r x * (mean (ny m) P - x.2))| ≤ 2 * M * charLen m false e ^ 2 := by
  have h1 : ∀ i, IsCorner m e i → |disp m z r i - F r x - (Fx r x * (nx m i - x.1) + Fy r x * (ny m i - x.2))| ≤ 2 * M * charLen m false e ^ 2 := by
    intro i hi
    rw [hz i (corner_nid w he hi) r hr]
    exact taylor hM (hF.one hr e he) hx (pt_mem_hull hi)
  rcases hP with ⟨i, hi, rfl⟩ | rfl
  · simpa only [mean_single] using h1 i hi
  · have a := average_near (fun i => disp m z r i - F r x - (Fx r x * (nx m i - x.1) + Fy r x * (ny m i - x.2))) (ts := corners m e) (by simp [corners]) (c := 0)
      (η := 2 * M * charLen m false e ^ 2) (fun i hi => by rw [sub_zero]; exact h1 i ((Vert.corner (Or.inr rfl)).2 i hi))
    rw [sub_zero] at a
    convert a using 2
    simp only [mean, corners, List.map_cons, List.map_nil, List.sum_cons, List.sum_nil, List.length_cons, List.length_nil]
    push_cast
    ring

theorem mean_rot (w : WF m) (he : e ∈ m.eids) (hF : SmoothField m F Fx Fy S M) (hz : Nodal m F z) (hP : Vert m e P) (hx : x ∈ hull m e) {r : ℕ} (hr : r < 5) :
    |mean (disp m z r) P - F r x| ≤ 2 * S * charLen m false e := by
  refine average_near _ hP.corner.1 fun i hi => ?_
  have hi := hP.corner.2 i hi
  rw [hz i (corner_nid w he hi) r hr]
  exact (field_lip he hF hr hx (pt_mem_hull hi)).trans (mul_le_mul_of_nonneg_left (hull_dist (pt_mem_hull hi) hx) (by linarith [S_nonneg he hF hx]))

theorem mean_dist (hP : Vert m e P) (hQ : Vert m e Q) : |mean (nx m) Q - mean (nx m) P| ≤ charLen m false e ∧ |mean (ny m) Q - mean (ny m) P| ≤ charLen m false e := by
  constructor
  · refine average_near _ hQ.corner.1 fun i hi => ?_
    rw [abs_sub_comm]
    refine average_near _ hP.corner.1 fun j hj => ?_
    exact (coord_le (corner_dist (hP.corner.2 j hj) (hQ.corner.2 i hi))).1
  · refine average_near _ hQ.corner.1 fun i hi => ?_
    rw [abs_sub_comm]
    refine average_near _ hP.corner.1 fun j hj => ?_
    exact (coord_le (corner_dist (hP.corner.2 j hj) (hQ.corner.2 i hi))).2

theorem gap_near (w : WF m) (he : e ∈ m.eids) (hM : 0 ≤ M) (hF : SmoothField m F Fx Fy S M) (hz : Nodal m F z) (hP : Vert m e P) (hQ : Vert m e Q) (hx : x ∈ hull m e) :
    |gap m z P Q - (shear F Fx Fy x 0 * (mean (nx m) Q - mean (nx m) P) + shear F Fx Fy x 1 * (mean (ny m) Q - mean (ny m) P))| ≤ 4 * (M + S) * charLen m false e ^ 2 := by
  have wP := mean_taylor w he hM hF hz hP hx (r := 2) (by norm_num)
  have wQ := mean_taylor w he hM hF hz hQ hx (r := 2) (by norm_num)
  have aP := mean_rot w he hF hz hP hx (r := 3) (by norm_num)
  have aQ := mean_rot w he hF hz hQ hx (r := 3) (by norm_num)
  have bP := mean_rot w he hF hz hP hx (r := 4) (by norm_num)
  have bQ := mean_rot w he hF hz hQ hx (r := 4) (by norm_num)
  obtain ⟨dx, dy⟩ := mean_dist hP hQ
  have hS := S_nonneg he hF hx
  have hc := charLen_nonneg m e
  have pr : ∀ a b c d : ℝ, |a - c| ≤ 2 * S * charLen m false e → |b - c| ≤ 2 * S * charLen m false e → |d| ≤ charLen m false e → |((a + b) / 2 - c) * d| ≤ 2 * S * charLen m false e ^ 2 := by
    intro a b c d h1 h2 h3
    rw [abs_mul]
    have h4 : |(a + b) / 2 - c| ≤ 2 * S * charLen m false e := by rw [abs_le] at *; constructor <;> linarith [h1.1, h1.2, h2.1, h2.2]
    calc _ ≤ 2 * S * charLen m false e * charLen m false e := mul_le_mul h4 h3 (abs_nonneg _) (by positivity)
      _ = _ := by ring
  have a := pr _ _ _ _ aP aQ dx
  have b := pr _ _ _ _ bP bQ dy
  unfold gap shear
  simp only [Matrix.cons_val_zero, Matrix.cons_val_one]
  rw [abs_le] at *
  constructor <;> linarith [wP.1, wP.2, wQ.1, wQ.2, a.1, a.2, b.1, b.2]

theorem cramer2 {x1 y1 x2 y2 D : ℝ} (g1 g2 : ℝ) (hD : x1 * y2 - x2 * y1 = D) (h : D ≠ 0) :
    (g1 * y2 - g2 * y1) / D * x1 + (g2 * x1 - g1 * x2) / D * y1 = g1 ∧ (g1 * y2 - g2 * y1) / D * x2 + (g2 * x1 - g1 * x2) / D * y2 = g2 := by
  constructor
  · field_simp; rw [← hD]; ring
  · field_simp; rw [← hD]; ring

theorem dsg_near (w : WF m) (he : e ∈ m.eids) (hM : 0 ≤ M) (hF : SmoothField m F Fx Fy S M) (hz : Nodal m F z) (hP : Vert m e P) (hQ : Vert m e Q) (hR : Vert m e R) (hx : x ∈ hull m e)
    (h0 : sarea m [P, Q, R] ≠ 0) (r : Fin 2) : |dsg m z P Q R r - shear F Fx Fy x r| ≤ 4 * (M + S) * charLen m false e ^ 2 * charLen m false e / |sarea m [P, Q, R]| := by
  have g1 := gap_near w he hM hF hz hP hQ hx
  have g2 := gap_near w he hM hF hz hP hR hx
  obtain ⟨x1, y1⟩ := mean_dist hP hQ
  obtain ⟨x2, y2⟩ := mean_dist hP hR
  have hD : (mean (nx m) Q - mean (nx m) P) * (mean (ny m) R - mean (ny m) P) - (mean (nx m) R - mean (nx m) P) * (mean (ny m) Q - mean (ny m) P) = 2 * sarea m [P, Q, R] := by
    rw [sarea3]; ring
  have hk := solve_small (p := dsg m z P Q R 0 - shear F Fx Fy x 0) (q := dsg m z P Q R 1 - shear F Fx Fy x 1) (x1 := mean (nx m) Q - mean (nx m) P) (y1 := mean (ny m) Q - mean (ny m) P)
    (x2 := mean (nx m) R - mean (nx m) P) (y2 := mean (ny m) R - mean (ny m) P) (A := |sarea m [P, Q, R]|)
    (r1 := gap m z P Q - (shear F Fx Fy x 0 * (mean (nx m) Q - mean (nx m) P) + shear F Fx Fy x 1 * (mean (ny m) Q - mean (ny m) P)))
    (r2 := gap m z P R - (shear F Fx Fy x 0 * (mean (nx m) R - mean (nx m) P) + shear F Fx Fy x 1 * (mean (ny m) R - mean (ny m) P)))
    (by
      have c := (cramer2 (gap m z P Q) (gap m z P R) hD (mul_ne_zero two_ne_zero h0)).1
      simp only [dsg, Matrix.cons_val_zero, Matrix.cons_val_one]
      linarith)
    (by
      have c := (cramer2 (gap m z P Q) (gap m z P R) hD (mul_ne_zero two_ne_zero h0)).2
      simp only [dsg, Matrix.cons_val_zero, Matrix.cons_val_one]
      linarith) (abs_pos.2 h0) (by rw [hD, abs_mul, abs_of_pos (by norm_num : (0:ℝ) < 2)]) x1 y1 x2 y2 g1 g2
  fin_cases r
  · exact hk.1
  · exact hk.2

theorem vert_one {i : ℕ} (hi : IsCorner m e i) : Vert m e [i] := Or.inl ⟨i, hi, rfl⟩

theorem tri_pos (hf : FlatMesh m) (he : e ∈ m.eids) : 0 < triArea m e := abs_pos.2 (hf.nondeg e he)

theorem div_shape {c A s : ℝ} (hA : 0 < A) {B : ℝ} (hB : 0 ≤ B) (hc : 0 ≤ c) (hs : c ^ 2 ≤ s * A) : B * c ^ 2 * c / A ≤ B * s * c := by
  rw [div_le_iff₀ hA]
  have := mul_le_mul_of_nonneg_left hs (mul_nonneg hB hc)
  linarith

/-- discrete shear gap strains of the whole triangle against the shear strains of the field -/
theorem whole_near (w : WF m) (hf : FlatMesh m) (he : e ∈ m.eids) (hM : 0 ≤ M) {s : ℝ} (hs : Shape m s) (hF : SmoothField m F Fx Fy S M) (hz : Nodal m F z) (hx : x ∈ hull m e) (r : Fin 2) :
    |wholeGamma m e z r - shear F Fx Fy x r| ≤ 4 * (M + S) * s * charLen m false e := by
  have h0 := hf.nondeg e he
  have hS := S_nonneg he hF hx
  have c1 : Vert m e [(m.tria e).n1] := vert_one (Or.inl rfl)
  have c2 : Vert m e [(m.tria e).n2] := vert_one (Or.inr (Or.inl rfl))
  have c3 : Vert m e [(m.tria e).n3] := vert_one (Or.inr (Or.inr rfl))
  have fin := div_shape (tri_pos hf he) (B := 4 * (M + S)) (by positivity) (charLen_nonneg m e) (hs e he)
  unfold wholeGamma
  split_ifs
  · exact (dsg_near w he hM hF hz c1 c2 c3 hx h0 r).trans fin
  · have sw : sarea m [[(m.tria e).n2], [(m.tria e).n1], [(m.tria e).n3]] = -sarea m [[(m.tria e).n1], [(m.tria e).n2], [(m.tria e).n3]] := by rw [sarea3, sarea3]; ring
    have := dsg_near w he hM hF hz c2 c1 c3 hx (by rw [sw]; exact neg_ne_zero.2 h0) r
    rw [sw, abs_neg] at this
    exact this.trans fin

theorem sub_area (t : List ℕ × List ℕ) (ht : t ∈ sides (tpoly m e)) : |sarea m [corners m e, t.1, t.2]| = triArea m e / 3 ∧ ∃ i j, IsCorner m e i ∧ IsCorner m e j ∧ t = ([i], [j]) := by
  have hA : triArea m e / 3 = |sarea m [[(m.tria e).n1], [(m.tria e).n2], [(m.tria e).n3]] / 3| := by
    rw [abs_div, abs_of_pos (by norm_num : (0:ℝ) < 3)]; rfl
  have e3 : sides (tpoly m e) = [([(m.tria e).n1], [(m.tria e).n2]), ([(m.tria e).n2], [(m.tria e).n3]), ([(m.tria e).n3], [(m.tria e).n1])] := rfl
  have mc : ∀ f : ℕ → ℝ, mean f (corners m e) = (f (m.tria e).n1 + f (m.tria e).n2 + f (m.tria e).n3) / 3 := fun f => by
    simp [mean, corners]; ring
  rw [e3] at ht
  simp only [List.mem_cons, List.not_mem_nil, or_false] at ht
  rcases ht with rfl | rfl | rfl
  · refine ⟨?_, _, _, Or.inl rfl, Or.inr (Or.inl rfl), rfl⟩
    rw [hA, sarea3, sarea3]; simp only [mean_single, mc]; congr 1; ring
  · refine ⟨?_, _, _, Or.inr (Or.inl rfl), Or.inr (Or.inr rfl), rfl⟩
    rw [hA, sarea3, sarea3]; simp only [mean_single, mc]; congr 1; ring
  · refine ⟨?_, _, _, Or.inr (Or.inr rfl), Or.inl rfl, rfl⟩
    rw [hA, sarea3, sarea3]; simp only [mean_single, mc]; congr 1; ring

/-- smoothed discrete shear gap strains of a triangle against the shear strains of the field -/
theorem cell_near (w : WF m) (hf : FlatMesh m) (he : e ∈ m.eids) (hM : 0 ≤ M) {s : ℝ} (hs : Shape m s) (hF : SmoothField m F Fx Fy S M) (hz : Nodal m F z) (hx : x ∈ hull m e) (r : Fin 2) :
    |cellGamma m e z r - shear F Fx Fy x r| ≤ 12 * (M + S) * s * charLen m false e := by
  have hA := tri_pos hf he
  have hS := S_nonneg he hF hx
  have fin := div_shape hA (B := 12 * (M + S)) (by positivity) (charLen_nonneg m e) (hs e he)
  refine weighted_near (fun t : List ℕ × List ℕ => |sarea m [corners m e, t.1, t.2]|) (fun t => dsg m z (corners m e) t.1 t.2 r) (ts := sides (tpoly m e)) (fun t ht => ?_) (by simp [tpoly, sides])
    ?_ (fun t ht => ?_)
  · rw [(sub_area t ht).1]; positivity
  · have : ((sides (tpoly m e)).map fun t => |sarea m [corners m e, t.1, t.2]|).sum = triArea m e := by
      rw [List.map_congr_left (g := fun _ => triArea m e / 3) fun t ht => (sub_area t ht).1]
      have : (sides (tpoly m e)).length = 3 := rfl
      rw [List.map_const', this]
      simp only [List.sum_replicate, nsmul_eq_mul]
      push_cast; ring
    rw [this, cellGamma, mul_div_cancel₀ _ hA.ne']
  · obtain ⟨ha, i, j, hi, hj, rfl⟩ := sub_area t ht
    have := dsg_near w he hM hF hz (Or.inr rfl : Vert m e (corners m e)) (vert_one hi) (vert_one hj) hx (by rw [← abs_pos, ha]; positivity) r
    rw [ha] at this
    refine this.trans (le_trans (le_of_eq ?_) fin)
    field_simp
    ring

theorem strain_near (w : WF m) (hf : FlatMesh m) (he : e ∈ m.eids) (hM : 0 ≤ M) {s : ℝ} (hs : Shape m s) (hF : SmoothField m F Fx Fy S M) (hz : Nodal m F z) (hx : x ∈ hull m e) (r : Fin 2) :
    |cellStrain m e z r - shear F Fx Fy x r| ≤ 12 * (M + S) * s * charLen m false e + 3 * sixthErr * S := by
  have h1 := cell_near w hf he hM hs hF hz hx r
  have h2 : |rotSum m e z r| ≤ 3 * S := by
    have b : ∀ i, IsCorner m e i → |disp m z (3 + r.val) i| ≤ S := fun i hi => by
      rw [hz i (corner_nid w he hi) _ (by omega)]
      exact (hF.bound e he _ (by omega) _ (pt_mem_hull hi)).1
    have b1 := b _ (Or.inl rfl)
    have b2 := b _ (Or.inr (Or.inl rfl))
    have b3 := b _ (Or.inr (Or.inr rfl))
    unfold rotSum corners
    simp only [List.map_cons, List.map_nil, List.sum_cons, List.sum_nil, add_zero]
    rw [abs_le] at *
    constructor <;> linarith [b1.1, b1.2, b2.1, b2.2, b3.1, b3.2]
  have h3 : |sixthErr * rotSum m e z r| ≤ 3 * sixthErr * S := by
    rw [abs_mul, abs_of_pos sixthErr_eq.1]
    nlinarith [sixthErr_eq.1]
  unfold cellStrain
  rw [abs_le] at *
  constructor <;> linarith [h1.1, h1.2, h3.1, h3.2]

theorem shear_bound (he : e ∈ m.eids) (hF : SmoothField m F Fx Fy S M) (hx : x ∈ hull m e) (r : Fin 2) : |shear F Fx Fy x r| ≤ 2 * S := by
  have b := fun r (hr : r < 5) => hF.bound e he r hr x hx
  unfold shear
  fin_cases r
  · exact (abs_add_le _ _).trans (by linarith [(b 2 (by norm_num)).2.1, (b 3 (by norm_num)).1])
  · exact (abs_add_le _ _).trans (by linarith [(b 2 (by norm_num)).2.2, (b 4 (by norm_num)).1])

/-! ### moduli -/

theorem cavg_near {h : ℝ} (hh : Size m h) {pn : Bool} {l : ℕ → ℝ × ℝ → Lam} {L0 L1 : ℝ} (hL1 : 0 ≤ L1) (hl : SmoothLam m l L0 L1) (ha : Assigned m pn l) (he : e ∈ m.eids) (hx : x ∈ hull m e)
    {sel : Lam → ℝ} (hsel : sel ∈ lamData) : |cavg m pn e sel| ≤ L0 ∧ |cavg m pn e sel - sel (l e x)| ≤ L1 * h := by
  have hh0 := size_nonneg hh he
  unfold Assigned at ha
  cases pn with
  | false =>
    rw [if_neg (by simp)] at ha
    obtain ⟨y, hy, hpr⟩ := ha e he
    have : cavg m false e sel = sel (l e y) := by
      simp only [cavg, if_neg (show ¬ (false = true) by simp), hpr, ofProp]
    rw [this]
    exact ⟨hl.bound e he y hy sel hsel, (hl.lip e he y hy x hx sel hsel).trans (mul_le_mul_of_nonneg_left ((hull_dist hy hx).trans (hh e he)) hL1)⟩
  | true =>
    rw [if_pos rfl] at ha
    have hc := Vert.corner (Or.inr rfl : Vert m e (corners m e))
    have e1 : cavg m true e sel = mean (fun i => ofProp sel (m.node i).prop) (corners m e) := by simp [cavg]
    have val : ∀ i, IsCorner m e i → ofProp sel (m.node i).prop = sel (l e (pt m i)) := fun i hi => by rw [ha e he i hi]; rfl
    constructor
    · rw [e1, ← sub_zero (mean _ _)]
      refine average_near _ hc.1 fun i hi => ?_
      rw [sub_zero, val i (hc.2 i hi)]
      exact hl.bound e he _ (pt_mem_hull (hc.2 i hi)) sel hsel
    · rw [e1]
      refine average_near _ hc.1 fun i hi => ?_
      rw [val i (hc.2 i hi)]
      exact (hl.lip e he _ (pt_mem_hull (hc.2 i hi)) x hx sel hsel).trans (mul_le_mul_of_nonneg_left ((hull_dist (pt_mem_hull (hc.2 i hi)) hx).trans (hh e he)) hL1)

theorem cavg_thick {pn : Bool} {l : ℕ → ℝ × ℝ → Lam} (ha : Assigned m pn l) (he : e ∈ m.eids) {tau : ℝ} (ht : ThickAtLeast m l tau) : tau ≤ cavg m pn e fun l => l.h := by
  unfold Assigned at ha
  cases pn with
  | false =>
    rw [if_neg (by simp)] at ha
    obtain ⟨y, hy, hpr⟩ := ha e he
    have : cavg m false e (fun l => l.h) = (l e y).h := by
      simp only [cavg, if_neg (show ¬ (false = true) by simp), hpr, ofProp]
    rw [this]
    exact ht e he y hy
  | true =>
    rw [if_pos rfl] at ha
    have val : ∀ i, IsCorner m e i → tau ≤ ofProp (fun l => l.h) (m.node i).prop := fun i hi => by rw [ha e he i hi]; exact ht e he _ (pt_mem_hull hi)
    have v1 := val _ (Or.inl rfl)
    have v2 := val _ (Or.inr (Or.inl rfl))
    have v3 := val _ (Or.inr (Or.inr rfl))
    simp only [cavg, if_true, mean, corners, List.map_cons, List.map_nil, List.sum_cons, List.sum_nil, List.length_cons, List.length_nil]
    push_cast
    rw [le_div_iff₀ (by norm_num)]
    linarith

theorem charLen_le (fa : Bool) : charLen m fa e ≤ charLen m false e := by
  cases fa with
  | false => exact le_rfl
  | true =>
    unfold charLen
    rw [if_pos rfl]
    refine Real.sqrt_le_iff.2 ⟨charLen_nonneg m e, ?_⟩
    have c1 : IsCorner m e (m.tria e).n1 := Or.inl rfl
    have c2 : IsCorner m e (m.tria e).n2 := Or.inr (Or.inl rfl)
    have c3 : IsCorner m e (m.tria e).n3 := Or.inr (Or.inr rfl)
    obtain ⟨x1, y1⟩ := coord_le (corner_dist c2 c1)
    obtain ⟨x2, y2⟩ := coord_le (corner_dist c3 c1)
    have hc := charLen_nonneg m e
    have e1 : triArea m e = |((pt m (m.tria e).n2).1 - (pt m (m.tria e).n1).1) * ((pt m (m.tria e).n3).2 - (pt m (m.tria e).n1).2)
        - ((pt m (m.tria e).n3).1 - (pt m (m.tria e).n1).1) * ((pt m (m.tria e).n2).2 - (pt m (m.tria e).n1).2)| / 2 := by
      unfold triArea
      rw [sarea3, abs_div, abs_of_pos (by norm_num : (0:ℝ) < 2)]
      simp only [mean_single, pt]
    rw [e1]
    have p1 := mul_le_mul x1 y2 (abs_nonneg _) hc
    have p2 := mul_le_mul x2 y1 (abs_nonneg _) hc
    rw [← abs_mul] at p1 p2
    have := abs_sub (((pt m (m.tria e).n2).1 - (pt m (m.tria e).n1).1) * ((pt m (m.tria e).n3).2 - (pt m (m.tria e).n1).2))
      (((pt m (m.tria e).n3).1 - (pt m (m.tria e).n1).1) * ((pt m (m.tria e).n2).2 - (pt m (m.tria e).n1).2))
    change _ ≤ charLen m false e ^ 2
    linarith [pow_two (charLen m false e)]

theorem prod_near {a b a' b' L ω : ℝ} (ha : |a| ≤ L) (hb' : |b'| ≤ L) (h1 : |a - a'| ≤ ω) (h2 : |b - b'| ≤ ω) : |a * b - a' * b'| ≤ 2 * L * ω := by
  have hL := (abs_nonneg _).trans ha
  rw [show a * b - a' * b' = a * (b - b') + (a - a') * b' by ring]
  refine (abs_add_le _ _).trans ?_
  rw [abs_mul, abs_mul]
  have p1 := mul_le_mul ha h2 (abs_nonneg _) hL
  have p2 := mul_le_mul h1 hb' (abs_nonneg _) ((abs_nonneg _).trans h1)
  linarith

theorem shear_lamData : (fun l : Lam => l.k23) ∈ lamData ∧ (fun l : Lam => l.k13) ∈ lamData ∧ (fun l : Lam => l.E 0 0) ∈ lamData ∧ (fun l : Lam => l.E 1 1) ∈ lamData := by
  unfold lamData
  exact ⟨List.mem_append_right _ (by simp), List.mem_append_right _ (by simp), List.mem_append_right _ (by simp), List.mem_append_right _ (by simp)⟩

theorem mod_near {h : ℝ} (hh : Size m h) {pn : Bool} {l : ℕ → ℝ × ℝ → Lam} {L0 L1 : ℝ} (hL1 : 0 ≤ L1) (hl : SmoothLam m l L0 L1) (ha : Assigned m pn l) (he : e ∈ m.eids) (hx : x ∈ hull m e)
    {tau al : ℝ} (htau : 0 < tau) (ht : ThickAtLeast m l tau) (hal : 0 ≤ al) (fa : Bool) (r : Fin 2) :
    |shearMod m pn al fa e r| ≤ L0 ^ 2 ∧ |shearMod m pn al fa e r - shearStiff (l e x) r| ≤ al * h ^ 2 / tau ^ 2 * L0 ^ 2 + 2 * L0 * (L1 * h) := by
  have hh0 := size_nonneg hh he
  obtain ⟨d1, d2, d3, d4⟩ := shear_lamData
  have n := fun sel hsel => cavg_near hh hL1 hl ha he hx (sel := sel) hsel
  have b := fun sel hsel => hl.bound e he x hx sel hsel
  have hk := cavg_thick ha he ht
  set k := cavg m pn e fun l => l.h with hkdef
  have hk0 : 0 < k := lt_of_lt_of_le htau hk
  set c := charLen m fa e with hc
  have hc0 : 0 ≤ c := by
    cases fa with
    | false => exact charLen_nonneg m e
    | true => rw [hc]; unfold charLen; rw [if_pos rfl]; exact Real.sqrt_nonneg _
  have hch : c ≤ h := (charLen_le fa).trans (hh e he)
  have hden : 0 < k ^ 2 + al * c ^ 2 := by positivity
  have hL0 : 0 ≤ L0 := (abs_nonneg _).trans (n _ d1).1
  have f0 : 0 ≤ k ^ 2 / (k ^ 2 + al * c ^ 2) := by positivity
  have f1 : k ^ 2 / (k ^ 2 + al * c ^ 2) ≤ 1 := by rw [div_le_one hden]; nlinarith [mul_nonneg hal (sq_nonneg c)]
  have f2 : 1 - k ^ 2 / (k ^ 2 + al * c ^ 2) ≤ al * h ^ 2 / tau ^ 2 := by
    rw [show 1 - k ^ 2 / (k ^ 2 + al * c ^ 2) = al * c ^ 2 / (k ^ 2 + al * c ^ 2) by field_simp; ring]
    have hc2 : c ^ 2 ≤ h ^ 2 := pow_le_pow_left₀ hc0 hch 2
    have hk2 : tau ^ 2 ≤ k ^ 2 := pow_le_pow_left₀ htau.le hk 2
    exact div_le_div₀ (by positivity) (mul_le_mul_of_nonneg_left hc2 hal) (by positivity) (by nlinarith [mul_nonneg hal (sq_nonneg c)])
  have main : ∀ p p' : ℝ, |p| ≤ L0 ^ 2 → |p - p'| ≤ 2 * L0 * (L1 * h) → |k ^ 2 / (k ^ 2 + al * c ^ 2) * p| ≤ L0 ^ 2 ∧
      |k ^ 2 / (k ^ 2 + al * c ^ 2) * p - p'| ≤ al * h ^ 2 / tau ^ 2 * L0 ^ 2 + 2 * L0 * (L1 * h) := by
    intro p p' hp hpp
    constructor
    · rw [abs_mul, abs_of_nonneg f0]
      exact (mul_le_of_le_one_left (abs_nonneg _) f1).trans hp
    · rw [show k ^ 2 / (k ^ 2 + al * c ^ 2) * p - p' = -((1 - k ^ 2 / (k ^ 2 + al * c ^ 2)) * p) + (p - p') by ring]
      refine (abs_add_le _ _).trans (add_le_add ?_ hpp)
      rw [abs_neg, abs_mul, abs_of_nonneg (by linarith)]
      exact mul_le_mul f2 hp (abs_nonneg _) (by positivity)
  have sqle : ∀ a b : ℝ, |a| ≤ L0 → |b| ≤ L0 → |a * b| ≤ L0 ^ 2 := fun a b h1 h2 => by
    rw [abs_mul, pow_two]; exact mul_le_mul h1 h2 (abs_nonneg _) hL0
  unfold shearMod shearStiff
  dsimp only
  split_ifs
  · exact main _ _ (sqle _ _ (n _ d1).1 (n _ d3).1) (prod_near (n _ d1).1 (b _ d3) (n _ d1).2 (n _ d3).2)
  · exact main _ _ (sqle _ _ (n _ d2).1 (n _ d4).1) (prod_near (n _ d2).1 (b _ d4) (n _ d2).2 (n _ d4).2)

/-! ### energies -/

theorem shear_cont (he : e ∈ m.eids) (hF : SmoothField m F Fx Fy S M) (r : Fin 2) : ContinuousOn (fun x => shear F Fx Fy x r) (hull m e) := by
  have cx : ContinuousOn (Fx 2) (hull m e) := cont_of_lip fun x hx y hy => (hF.lip e he 2 (by norm_num) x hx y hy).1
  have cy : ContinuousOn (Fy 2) (hull m e) := cont_of_lip fun x hx y hy => (hF.lip e he 2 (by norm_num) x hx y hy).2
  have c : ∀ r < 5, ContinuousOn (F r) (hull m e) := fun r hr => cont_of_lip fun x hx y hy => field_lip he hF hr hy hx
  unfold shear
  fin_cases r
  · exact cx.add (c 3 (by norm_num))
  · exact cy.add (c 4 (by norm_num))

theorem triangles_near {q : ℕ → ℝ × ℝ → ℝ} {Y : ℕ → ℝ} {β : ℝ} (hq : ∀ e ∈ m.eids, ContinuousOn (q e) (hull m e)) (h : ∀ e ∈ m.eids, ∀ x ∈ hull m e, |Y e - q e x| ≤ β) :
    |(m.eids.map fun e => triArea m e * Y e).sum - (m.eids.map fun e => ∫ x in hull m e, q e x).sum| ≤ totalArea m * β := by
  have := thirds_near (Y := fun e _ => Y e) hq (fun e he k _ x hx => h e he x hx)
  have e1 : ∀ e, ((m.tria e).edgeIds.map fun _ => triArea m e / 3 * Y e).sum = triArea m e * Y e := fun e => by
    simp only [Tria.edgeIds, List.map_cons, List.map_nil, List.sum_cons, List.sum_nil]; ring
  simpa only [e1] using this

theorem shearEnergy_near {h : ℝ} (hh : Size m h) {pn : Bool} {l : ℕ → ℝ × ℝ → Lam} {L0 L1 : ℝ} (hL1 : 0 ≤ L1) (hl : SmoothLam m l L0 L1) (ha : Assigned m pn l)
    {tau al : ℝ} (htau : 0 < tau) (ht : ThickAtLeast m l tau) (hal : 0 ≤ al) (fa : Bool) {G Gx Gy : ℕ → ℝ × ℝ → ℝ} (hF : SmoothField m F Fx Fy S M) (hG : SmoothField m G Gx Gy S M)
    {v u : ℕ → ℝ} {gamma : ℕ → (ℕ → ℝ) → Fin 2 → ℝ} {δ : ℝ} (hv : ∀ e ∈ m.eids, ∀ x ∈ hull m e, ∀ r, |gamma e v r - shear F Fx Fy x r| ≤ δ)
    (hu : ∀ e ∈ m.eids, ∀ x ∈ hull m e, ∀ r, |gamma e u r - shear G Gx Gy x r| ≤ δ) :
    |shearEnergy m pn al fa gamma v u - contShear m l F Fx Fy G Gx Gy| ≤ totalArea m *
      (2 * (L0 ^ 2 * δ * (2 * (2 * S) + δ) + (2 * S) ^ 2 * (al * h ^ 2 / tau ^ 2 * L0 ^ 2 + 2 * L0 * (L1 * h)))) := by
  obtain ⟨d1, d2, d3, d4⟩ := shear_lamData
  refine triangles_near (fun e he => ?_) (fun e he x hx => ?_)
  · refine continuousOn_finsetSum _ fun r _ => ((shear_cont he hF r).mul ?_).mul (shear_cont he hG r)
    unfold shearStiff
    fin_cases r
    · exact (lam_cont hl he d1).mul (lam_cont hl he d3)
    · exact (lam_cont hl he d2).mul (lam_cont hl he d4)
  · have n := fun r => mod_near hh hL1 hl ha he hx htau ht hal fa r
    have p := fun r => prod3_near (hv e he x hx r) (hu e he x hx r) (shear_bound he hF hx r) (shear_bound he hG hx r) (n r).1 (n r).2
    rw [Fin.sum_univ_two]
    have p0 := p 0
    have p1 := p 1
    rw [abs_le] at *
    constructor <;> linarith [p0.1, p0.2, p1.1, p1.2]

end

end Meshless
