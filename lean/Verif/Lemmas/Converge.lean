import Verif.Spec.Converge
import Verif.Lemmas.ConsistShear
import Verif.Props.Stable

/-! Consistency against all displacements: the energy product of the nodal values of a field with any displacement against the virtual work. -/

set_option autoImplicit false

namespace Meshless
open Spec Finset MeasureTheory

section
variable {m : Mesh} {e : ℕ}

theorem lin_corner (w : WF m) (hp : Proper m) (hg : Planar m) (he : e ∈ m.eids) (f : ℕ → ℝ) {i : ℕ} (hi : IsCorner m e i) : lin m e f (pt m i) = f i := by
  obtain ⟨c, p, q, h⟩ := aff_exists w hp hg he f
  obtain ⟨e1, e2⟩ := tri_grad hg he h
  unfold lin
  rw [e1, e2, h i hi, h _ (Or.inl rfl)]
  simp only [pt]
  ring

theorem lin_sub (f : ℕ → ℝ) (x y : ℝ × ℝ) : lin m e f x - lin m e f y = gradX m (tpoly m e) f * (x.1 - y.1) + gradY m (tpoly m e) f * (x.2 - y.2) := by
  unfold lin; ring

theorem lin_near (f : ℕ → ℝ) {x y : ℝ × ℝ} {l : ℝ} (h : dist x y ≤ l) : |lin m e f x - lin m e f y| ≤ (|gradX m (tpoly m e) f| + |gradY m (tpoly m e) f|) * l := by
  obtain ⟨h1, h2⟩ := coord_le h
  rw [lin_sub]
  refine (abs_add_le _ _).trans ?_
  rw [abs_mul, abs_mul, add_mul]
  exact add_le_add (mul_le_mul_of_nonneg_left h1 (abs_nonneg _)) (mul_le_mul_of_nonneg_left h2 (abs_nonneg _))

theorem lin_cont (f : ℕ → ℝ) : Continuous (lin m e f) := by unfold lin; fun_prop

theorem mean_aff {f : ℕ → ℝ} {c p q : ℝ} (h : Aff m e f c p q) {P : List ℕ} (hP : Vert m e P) : mean f P = c + p * mean (nx m) P + q * mean (ny m) P := by
  rcases hP with ⟨i, hi, rfl⟩ | rfl
  · simp only [mean_single]; exact h i hi
  · simp only [mean, corners, List.map_cons, List.map_nil, List.sum_cons, List.sum_nil, List.length_cons, List.length_nil]
    rw [h _ (Or.inl rfl), h _ (Or.inr (Or.inl rfl)), h _ (Or.inr (Or.inr rfl))]
    push_cast; ring

theorem mean_linNear (w : WF m) (hp : Proper m) (hg : Planar m) (he : e ∈ m.eids) (f : ℕ → ℝ) {P : List ℕ} (hP : Vert m e P) {x : ℝ × ℝ} (hx : x ∈ hull m e) :
    |mean f P - lin m e f x| ≤ (|gradX m (tpoly m e) f| + |gradY m (tpoly m e) f|) * charLen m false e := by
  refine average_near _ hP.corner.1 fun i hi => ?_
  have hi := hP.corner.2 i hi
  rw [← lin_corner w hp hg he f hi]
  exact lin_near f (hull_dist (pt_mem_hull hi) hx)

/-- sum of the sizes of the derivatives of the rotations -/
noncomputable def rotAbs (m : Mesh) (e : ℕ) (v : ℕ → ℝ) : ℝ := ∑ j, |rotGrad m e v j|

theorem rotAbs_nonneg (v : ℕ → ℝ) : 0 ≤ rotAbs m e v := Finset.sum_nonneg fun _ _ => abs_nonneg _

theorem rotAbs_eq (v : ℕ → ℝ) : rotAbs m e v = |gradX m (tpoly m e) (disp m v 3)| + |gradY m (tpoly m e) (disp m v 3)| + (|gradX m (tpoly m e) (disp m v 4)| + |gradY m (tpoly m e) (disp m v 4)|) := by
  unfold rotAbs rotGrad
  rw [Fin.sum_univ_four]
  simp only [Matrix.cons_val_zero, Matrix.cons_val_one, Matrix.cons_val]
  ring

theorem gap_test (w : WF m) (hp : Proper m) (hg : Planar m) (he : e ∈ m.eids) (v : ℕ → ℝ) {P Q : List ℕ} (hP : Vert m e P) (hQ : Vert m e Q) {x : ℝ × ℝ} (hx : x ∈ hull m e) :
    |gap m v P Q - (linShear m e v x 0 * (mean (nx m) Q - mean (nx m) P) + linShear m e v x 1 * (mean (ny m) Q - mean (ny m) P))| ≤ rotAbs m e v * charLen m false e ^ 2 := by
  obtain ⟨c, p, q, h⟩ := aff_exists w hp hg he (disp m v 2)
  obtain ⟨e1, e2⟩ := tri_grad hg he h
  have aP := mean_linNear w hp hg he (disp m v 3) hP hx
  have aQ := mean_linNear w hp hg he (disp m v 3) hQ hx
  have bP := mean_linNear w hp hg he (disp m v 4) hP hx
  have bQ := mean_linNear w hp hg he (disp m v 4) hQ hx
  obtain ⟨dx, dy⟩ := mean_dist hP hQ
  have hc := charLen_nonneg m e
  have pr : ∀ a b c d t : ℝ, |a - c| ≤ t * charLen m false e → |b - c| ≤ t * charLen m false e → |d| ≤ charLen m false e → |((a + b) / 2 - c) * d| ≤ t * charLen m false e ^ 2 := by
    intro a b c d t h1 h2 h3
    rw [abs_mul]
    have h4 : |(a + b) / 2 - c| ≤ t * charLen m false e := by rw [abs_le] at *; constructor <;> linarith [h1.1, h1.2, h2.1, h2.2]
    calc _ ≤ t * charLen m false e * charLen m false e := mul_le_mul h4 h3 (abs_nonneg _) ((abs_nonneg _).trans h1)
      _ = _ := by ring
  have a := pr _ _ _ _ _ aP aQ dx
  have b := pr _ _ _ _ _ bP bQ dy
  rw [rotAbs_eq]
  unfold gap linShear
  simp only [Matrix.cons_val_zero, Matrix.cons_val_one]
  rw [e1, e2, mean_aff h hP, mean_aff h hQ]
  rw [abs_le] at *
  constructor <;> linarith [a.1, a.2, b.1, b.2]

theorem dsg_test (w : WF m) (hp : Proper m) (hg : Planar m) (he : e ∈ m.eids) (v : ℕ → ℝ) {P Q R : List ℕ} (hP : Vert m e P) (hQ : Vert m e Q) (hR : Vert m e R) {x : ℝ × ℝ} (hx : x ∈ hull m e)
    (h0 : sarea m [P, Q, R] ≠ 0) (r : Fin 2) : |dsg m v P Q R r - linShear m e v x r| ≤ rotAbs m e v * charLen m false e ^ 2 * charLen m false e / |sarea m [P, Q, R]| := by
  have g1 := gap_test w hp hg he v hP hQ hx
  have g2 := gap_test w hp hg he v hP hR hx
  obtain ⟨x1, y1⟩ := mean_dist hP hQ
  obtain ⟨x2, y2⟩ := mean_dist hP hR
  have hD : (mean (nx m) Q - mean (nx m) P) * (mean (ny m) R - mean (ny m) P) - (mean (nx m) R - mean (nx m) P) * (mean (ny m) Q - mean (ny m) P) = 2 * sarea m [P, Q, R] := by
    rw [sarea3]; ring
  have hk := solve_small (p := dsg m v P Q R 0 - linShear m e v x 0) (q := dsg m v P Q R 1 - linShear m e v x 1) (x1 := mean (nx m) Q - mean (nx m) P) (y1 := mean (ny m) Q - mean (ny m) P)
    (x2 := mean (nx m) R - mean (nx m) P) (y2 := mean (ny m) R - mean (ny m) P) (A := |sarea m [P, Q, R]|)
    (r1 := gap m v P Q - (linShear m e v x 0 * (mean (nx m) Q - mean (nx m) P) + linShear m e v x 1 * (mean (ny m) Q - mean (ny m) P)))
    (r2 := gap m v P R - (linShear m e v x 0 * (mean (nx m) R - mean (nx m) P) + linShear m e v x 1 * (mean (ny m) R - mean (ny m) P)))
    (by
      have c := (cramer2 (gap m v P Q) (gap m v P R) hD (mul_ne_zero two_ne_zero h0)).1
      simp only [dsg, Matrix.cons_val_zero, Matrix.cons_val_one]
      linarith)
    (by
      have c := (cramer2 (gap m v P Q) (gap m v P R) hD (mul_ne_zero two_ne_zero h0)).2
      simp only [dsg, Matrix.cons_val_zero, Matrix.cons_val_one]
      linarith) (abs_pos.2 h0) (by rw [hD, abs_mul, abs_of_pos (by norm_num : (0:ℝ) < 2)]) x1 y1 x2 y2 g1 g2
  fin_cases r
  · exact hk.1
  · exact hk.2

theorem flat_of (hg : Planar m) : FlatMesh m := ⟨hg.basic, hg.flat, hg.nondeg⟩

theorem whole_test (w : WF m) (hp : Proper m) (hg : Planar m) (he : e ∈ m.eids) {s : ℝ} (hs : Shape m s) (v : ℕ → ℝ) {x : ℝ × ℝ} (hx : x ∈ hull m e) (r : Fin 2) :
    |wholeGamma m e v r - linShear m e v x r| ≤ rotAbs m e v * s * charLen m false e := by
  have h0 := hg.nondeg e he
  have c1 : Vert m e [(m.tria e).n1] := vert_one (Or.inl rfl)
  have c2 : Vert m e [(m.tria e).n2] := vert_one (Or.inr (Or.inl rfl))
  have c3 : Vert m e [(m.tria e).n3] := vert_one (Or.inr (Or.inr rfl))
  have fin := div_shape (tri_pos (flat_of hg) he) (B := rotAbs m e v) (rotAbs_nonneg v) (charLen_nonneg m e) (hs e he)
  unfold wholeGamma
  split_ifs
  · exact (dsg_test w hp hg he v c1 c2 c3 hx h0 r).trans fin
  · have sw : sarea m [[(m.tria e).n2], [(m.tria e).n1], [(m.tria e).n3]] = -sarea m [[(m.tria e).n1], [(m.tria e).n2], [(m.tria e).n3]] := by rw [sarea3, sarea3]; ring
    have := dsg_test w hp hg he v c2 c1 c3 hx (by rw [sw]; exact neg_ne_zero.2 h0) r
    rw [sw, abs_neg] at this
    exact this.trans fin

theorem cell_test (w : WF m) (hp : Proper m) (hg : Planar m) (he : e ∈ m.eids) {s : ℝ} (hs : Shape m s) (v : ℕ → ℝ) {x : ℝ × ℝ} (hx : x ∈ hull m e) (r : Fin 2) :
    |cellGamma m e v r - linShear m e v x r| ≤ 3 * (rotAbs m e v * s * charLen m false e) := by
  have hA := tri_pos (flat_of hg) he
  have fin := div_shape hA (B := 3 * rotAbs m e v) (by linarith [rotAbs_nonneg (m := m) (e := e) v]) (charLen_nonneg m e) (hs e he)
  refine weighted_near (fun t : List ℕ × List ℕ => |sarea m [corners m e, t.1, t.2]|) (fun t => dsg m v (corners m e) t.1 t.2 r) (ts := sides (tpoly m e)) (fun t ht => ?_) (by simp [tpoly, sides])
    ?_ (fun t ht => ?_)
  · rw [(sub_area t ht).1]; positivity
  · have : ((sides (tpoly m e)).map fun t => |sarea m [corners m e, t.1, t.2]|).sum = triArea m e := by
      rw [List.map_congr_left (g := fun _ => triArea m e / 3) fun t ht => (sub_area t ht).1]
      have : (sides (tpoly m e)).length = 3 := rfl
      rw [List.map_const', this]
      simp only [List.sum_replicate, nsmul_eq_mul]
      push_cast; ring
    rw [this, cellGamma, mul_div_cancel₀ _ hA.ne']
  · obtain ⟨ha, i, j, hi, hj, rfl⟩ := sub_area t ht
    have := dsg_test w hp hg he v (Or.inr rfl : Vert m e (corners m e)) (vert_one hi) (vert_one hj) hx (by rw [← abs_pos, ha]; positivity) r
    rw [ha] at this
    refine this.trans (le_trans (le_of_eq ?_) (fin.trans (le_of_eq (by ring))))
    field_simp

/-! ### membrane and bending part -/

/-- forces and moments of the field -/
noncomputable def force (l : ℝ × ℝ → Lam) (Fx Fy : ℕ → ℝ × ℝ → ℝ) (x : ℝ × ℝ) (q : Fin 6) : ℝ := ∑ p, strain Fx Fy x p * abd (l x) p q

theorem prod2_near {a a' b b' δ S L ω : ℝ} (h1 : |a - a'| ≤ δ) (h2 : |a'| ≤ S) (h3 : |b| ≤ L) (h4 : |b - b'| ≤ ω) : |a * b - a' * b'| ≤ L * δ + S * ω := by
  rw [show a * b - a' * b' = (a - a') * b + a' * (b - b') by ring]
  refine (abs_add_le _ _).trans ?_
  rw [abs_mul, abs_mul]
  have p1 := mul_le_mul h1 h3 (abs_nonneg _) ((abs_nonneg _).trans h1)
  have p2 := mul_le_mul h2 h4 (abs_nonneg _) ((abs_nonneg _).trans h2)
  linarith

theorem sum6_near {f g : Fin 6 → ℝ} {β : ℝ} (h : ∀ p, |f p - g p| ≤ β) : |∑ p, f p - ∑ p, g p| ≤ 6 * β := by
  rw [← sum_sub_distrib]
  refine (abs_sum_le_sum_abs _ _).trans ((sum_le_sum fun p _ => h p).trans (le_of_eq ?_))
  simp

theorem strain_lip {F Fx Fy : ℕ → ℝ × ℝ → ℝ} {S M : ℝ} (hF : SmoothField m F Fx Fy S M) (he : e ∈ m.eids) {x y : ℝ × ℝ} (hx : x ∈ hull m e) (hy : y ∈ hull m e) (p : Fin 6) :
    |strain Fx Fy x p - strain Fx Fy y p| ≤ 2 * (M * dist x y) := by
  have l := fun r (hr : r < 5) => hF.lip e he r hr x hx y hy
  have h0 := (abs_nonneg _).trans (l 0 (by norm_num)).1
  unfold strain
  have two : ∀ a b c d t : ℝ, |a - b| ≤ t → |c - d| ≤ t → |a + c - (b + d)| ≤ 2 * t := fun a b c d t h1 h2 => by rw [abs_le] at *; constructor <;> linarith [h1.1, h1.2, h2.1, h2.2]
  fin_cases p
  · exact (l 0 (by norm_num)).1.trans (by linarith)
  · exact (l 1 (by norm_num)).2.trans (by linarith)
  · exact two _ _ _ _ _ (l 0 (by norm_num)).2 (l 1 (by norm_num)).1
  · exact (l 3 (by norm_num)).1.trans (by linarith)
  · exact (l 4 (by norm_num)).2.trans (by linarith)
  · exact two _ _ _ _ _ (l 3 (by norm_num)).2 (l 4 (by norm_num)).1

theorem force_lip {l : ℝ × ℝ → Lam} {L0 L1 : ℝ} (hL1 : 0 ≤ L1) (hl : SmoothLam m (fun _ => l) L0 L1) {F Fx Fy : ℕ → ℝ × ℝ → ℝ} {S M : ℝ} (hM : 0 ≤ M) (hF : SmoothField m F Fx Fy S M) {h : ℝ} (hh : Size m h)
    (he : e ∈ m.eids) {x y : ℝ × ℝ} (hx : x ∈ hull m e) (hy : y ∈ hull m e) (q : Fin 6) : |force l Fx Fy x q - force l Fx Fy y q| ≤ 6 * (L0 * (2 * (M * h)) + 2 * S * (L1 * h)) := by
  have hd := (hull_dist hx hy).trans (hh e he)
  refine sum6_near fun p => prod2_near ((strain_lip hF he hx hy p).trans ?_) (strain_bound hF he hy p) (hl.bound e he x hx _ (abd_lamData p q)) ((hl.lip e he x hx y hy _ (abd_lamData p q)).trans ?_)
  · exact mul_le_mul_of_nonneg_left (mul_le_mul_of_nonneg_left hd hM) (by norm_num)
  · exact mul_le_mul_of_nonneg_left hd hL1

theorem force_slot (w : WF m) (hp : Proper m) (hg : Planar m) {pn : Bool} {s h : ℝ} (hs : Shape m s) (hh : Size m h) {l : ℝ × ℝ → Lam} {L0 L1 : ℝ} (hL1 : 0 ≤ L1)
    (hl : SmoothLam m (fun _ => l) L0 L1) (ha : Assigned m pn fun _ => l) {F Fx Fy : ℕ → ℝ × ℝ → ℝ} {S M : ℝ} (hM : 0 ≤ M) (hF : SmoothField m F Fx Fy S M) {z : ℕ → ℝ} (hz : Nodal m F z)
    {k : Key} (hk : k ∈ m.ekeys) {t : ℕ} (ht : t ∈ (m.edge k).trias) {x : ℝ × ℝ} (hx : x ∈ hull m t) (q : Fin 6) :
    |∑ p, eps m k z p * slot m pn k t (fun l => abd l p q) - force l Fx Fy x q| ≤ 6 * (L0 * (2 * ((2 * s + 1) * M * h)) + 2 * S * (2 * L1 * h)) := by
  refine sum6_near fun p => ?_
  obtain ⟨s1, s2⟩ := slot_near w hp hh (pn := pn) hL1 hl ha hk ht hx (abd_lamData p q)
  exact prod2_near (eps_error w hp hg hs hh hM hF hz hk ht hx p) (strain_bound hF (edge_tria w hp hk ht).1 hx p) s1 s2

theorem quad_force {A : Fin 6 → Fin 6 → ℝ} (x y : Fin 6 → ℝ) : ∑ p, ∑ q, x p * A p q * y q = ∑ q, (∑ p, x p * A p q) * y q := by
  rw [sum_comm]
  exact sum_congr rfl fun q _ => by rw [sum_mul]

theorem six_le {a b y : Fin 6 → ℝ} {β : ℝ} (h : ∀ q, |a q - b q| ≤ β) : |∑ q, a q * y q - ∑ q, b q * y q| ≤ β * ∑ q, |y q| := by
  rw [← sum_sub_distrib, mul_sum]
  refine (abs_sum_le_sum_abs _ _).trans (sum_le_sum fun q _ => ?_)
  rw [← sub_mul, abs_mul]
  exact mul_le_mul_of_nonneg_right (h q) (abs_nonneg _)

theorem list_near {ι : Type} {L : List ι} {a b c : ι → ℝ} (h : ∀ i ∈ L, |a i - b i| ≤ c i) : |(L.map a).sum - (L.map b).sum| ≤ (L.map c).sum := by
  induction L with
  | nil => simp
  | cons i L ih =>
    simp only [List.map_cons, List.sum_cons]
    have h1 := h i (by simp)
    have h2 := ih fun j hj => h j (by simp [hj])
    rw [abs_le] at *
    constructor <;> linarith [h1.1, h1.2, h2.1, h2.2]

/-- sum of the sizes of the strains of the linear interpolation -/
noncomputable def triAbs (m : Mesh) (e : ℕ) (v : ℕ → ℝ) : ℝ := ∑ p, |triEps m e v p|

theorem eps_abs (w : WF m) (hp : Proper m) (hg : Planar m) {k : Key} (hk : k ∈ m.ekeys) (v : ℕ → ℝ) :
    |sarea m (dom m k)| * ∑ p, |eps m k v p| ≤ ((m.edge k).trias.map fun t => triArea m t / 3 * triAbs m t v).sum := by
  have hA : 0 ≤ |sarea m (dom m k)| := abs_nonneg _
  have h1 : ∀ p, |sarea m (dom m k)| * |eps m k v p| ≤ ((m.edge k).trias.map fun t => triArea m t / 3 * |triEps m t v p|).sum := by
    intro p
    have h := eps_avg w hp hg hk v p
    have e1 : |sarea m (dom m k)| * |eps m k v p| = |((m.edge k).trias.map fun t => triArea m t / 3 * triEps m t v p).sum| := by
      rw [← abs_abs (sarea m (dom m k)), ← abs_mul, dom_area w hp hg hk, div_mul_eq_mul_div, h, div_eq_mul_inv, ← List.sum_map_mul_right]
      congr 3
      funext t; ring
    rw [e1]
    generalize (m.edge k).trias = ts
    induction ts with
    | nil => simp
    | cons t ts ih =>
      simp only [List.map_cons, List.sum_cons]
      refine (abs_add_le _ _).trans (add_le_add (le_of_eq ?_) ih)
      rw [abs_mul, abs_of_nonneg (div_nonneg (abs_nonneg _) (by norm_num) : 0 ≤ triArea m t / 3)]
  rw [mul_sum]
  refine (sum_le_sum fun p _ => h1 p).trans (le_of_eq ?_)
  unfold triAbs
  generalize (m.edge k).trias = ts
  induction ts with
  | nil => simp
  | cons t ts ih => simp only [List.map_cons, List.sum_cons, sum_add_distrib, ih, mul_sum]

theorem three_same (e : ℕ) (a : ℝ) : ((m.tria e).edgeIds.map fun _ => triArea m e / 3 * a).sum = triArea m e * a := by
  simp only [Tria.edgeIds, List.map_cons, List.map_nil, List.sum_cons, List.sum_nil]; ring

/-- membrane and bending energy product against the virtual work of the forces and moments -/
theorem energy_test (w : WF m) (hp : Proper m) (hg : Planar m) {pn : Bool} {s h : ℝ} (hs : Shape m s) (hh : Size m h) {l : ℝ × ℝ → Lam} {L0 L1 : ℝ} (hL1 : 0 ≤ L1)
    (hl : SmoothLam m (fun _ => l) L0 L1) (ha : Assigned m pn fun _ => l) {F Fx Fy : ℕ → ℝ × ℝ → ℝ} {S M : ℝ} (hM : 0 ≤ M) (hF : SmoothField m F Fx Fy S M) {z : ℕ → ℝ} (hz : Nodal m F z)
    (v : ℕ → ℝ) : |energy m pn z v - (m.eids.map fun e => ∫ x in hull m e, ∑ q, force l Fx Fy x q * triEps m e v q).sum| ≤
      (6 * (L0 * (2 * ((2 * s + 1) * M * h)) + 2 * S * (2 * L1 * h)) + 6 * (L0 * (2 * (M * h)) + 2 * S * (L1 * h))) * (m.eids.map fun e => triArea m e * triAbs m e v).sum := by
  set B := 6 * (L0 * (2 * ((2 * s + 1) * M * h)) + 2 * S * (2 * L1 * h)) with hB
  set B' := 6 * (L0 * (2 * (M * h)) + 2 * S * (L1 * h)) with hB'
  have step1 : |energy m pn z v - (m.ekeys.map fun k => |sarea m (dom m k)| * ∑ q, force l Fx Fy (pt m k.1) q * eps m k v q).sum| ≤ B * (m.eids.map fun e => triArea m e * triAbs m e v).sum := by
    rw [energy_thirds w hp hg, eps_thirds w hp hg]
    have a1 : |(m.eids.map fun e => ((m.tria e).edgeIds.map fun k => triArea m e / 3 * ∑ p, ∑ q, eps m k z p * slot m pn k e (fun l => abd l p q) * eps m k v q).sum).sum -
        (m.eids.map fun e => ((m.tria e).edgeIds.map fun k => triArea m e / 3 * ∑ q, force l Fx Fy (pt m k.1) q * eps m k v q).sum).sum| ≤
        (m.eids.map fun e => ((m.tria e).edgeIds.map fun k => triArea m e / 3 * (B * ∑ q, |eps m k v q|)).sum).sum := by
      refine list_near fun e he => list_near fun k hk => ?_
      obtain ⟨hk, ht⟩ := side_trias w he hk
      have hA : 0 ≤ triArea m e / 3 := div_nonneg (abs_nonneg _) (by norm_num)
      rw [← mul_sub, abs_mul, abs_of_nonneg hA, quad_force]
      exact mul_le_mul_of_nonneg_left (six_le fun q => force_slot w hp hg hs hh hL1 hl ha hM hF hz hk ht (pt_mem_hull (edge_tria w hp hk ht).2.1) q) hA
    refine a1.trans ?_
    rw [← eps_thirds w hp hg fun k => B * ∑ q, |eps m k v q|]
    have e1 : (m.ekeys.map fun k => |sarea m (dom m k)| * (B * ∑ q, |eps m k v q|)).sum = B * (m.ekeys.map fun k => |sarea m (dom m k)| * ∑ q, |eps m k v q|).sum := by
      rw [← List.sum_map_mul_left]; congr 1; refine List.map_congr_left fun k _ => ?_; ring
    rw [e1]
    by_cases hne : m.eids = []
    · have : m.ekeys = [] := by
        rw [List.eq_nil_iff_forall_not_mem]
        intro k hk
        obtain ⟨e, he, _⟩ := (w.mem_ekeys k).1 hk
        rw [hne] at he
        simp at he
      rw [this, hne]; simp
    · obtain ⟨e0, he0⟩ := List.exists_mem_of_ne_nil _ hne
      have x0 := pt_mem_hull (m := m) (e := e0) (Or.inl rfl : IsCorner m e0 (m.tria e0).n1)
      have hB0 : 0 ≤ B := by
        have h0 : 0 ≤ L0 := (abs_nonneg _).trans (hl.bound e0 he0 _ x0 _ (abd_lamData 0 0))
        have h1 := S_nonneg he0 hF x0
        have h2 := size_nonneg hh he0
        have h3 := shape_nonneg hg hs he0
        positivity
      refine mul_le_mul_of_nonneg_left ?_ hB0
      have e2 : (m.eids.map fun e => triArea m e * triAbs m e v).sum = (m.ekeys.map fun k => ((m.edge k).trias.map fun t => triArea m t / 3 * triAbs m t v).sum).sum := by
        have := sum_sideTrias2 m.tria (fun e _ => triArea m e / 3 * triAbs m e v) w.ekeys_nodup (es := m.eids) (fun e he k hk => (w.mem_ekeys k).2 ⟨e, he, hk⟩)
        have e3 : (m.eids.map fun e => triArea m e * triAbs m e v) = m.eids.map fun e => ((m.tria e).edgeIds.map fun _ => triArea m e / 3 * triAbs m e v).sum :=
          List.map_congr_left fun e _ => (three_same e _).symm
        rw [e3, ← this]
        congr 1
        exact List.map_congr_left fun k hk => by rw [w.etrias k hk]
      rw [e2]
      exact List.sum_le_sum fun k hk => eps_abs w hp hg hk v
  have step2 : (m.ekeys.map fun k => |sarea m (dom m k)| * ∑ q, force l Fx Fy (pt m k.1) q * eps m k v q).sum =
      (m.eids.map fun e => ((m.tria e).edgeIds.map fun k => triArea m e / 3 * ∑ q, force l Fx Fy (pt m k.1) q * triEps m e v q).sum).sum := by
    refine thirds w (Y := fun e k => ∑ q, force l Fx Fy (pt m k.1) q * triEps m e v q) fun k hk => ?_
    have h : ∀ q, |sarea m (dom m k)| * eps m k v q = ((m.edge k).trias.map fun t => triArea m t / 3 * triEps m t v q).sum := fun q => by
      rw [dom_area w hp hg hk, div_mul_eq_mul_div, eps_avg w hp hg hk v q, div_eq_mul_inv, ← List.sum_map_mul_right]
      congr 2
      funext t; ring
    calc _ = ∑ q, force l Fx Fy (pt m k.1) q * (|sarea m (dom m k)| * eps m k v q) := by rw [mul_sum]; exact sum_congr rfl fun q _ => by ring
      _ = ∑ q, force l Fx Fy (pt m k.1) q * ((m.edge k).trias.map fun t => triArea m t / 3 * triEps m t v q).sum := sum_congr rfl fun q _ => by rw [h q]
      _ = _ := by
        generalize (m.edge k).trias = ts
        induction ts with
        | nil => simp
        | cons t ts ih =>
          simp only [List.map_cons, List.sum_cons, mul_add, sum_add_distrib, ih]
          congr 1
          rw [mul_sum]
          exact sum_congr rfl fun q _ => by ring
  have step3 : |(m.eids.map fun e => ((m.tria e).edgeIds.map fun k => triArea m e / 3 * ∑ q, force l Fx Fy (pt m k.1) q * triEps m e v q).sum).sum -
      (m.eids.map fun e => ∫ x in hull m e, ∑ q, force l Fx Fy x q * triEps m e v q).sum| ≤ B' * (m.eids.map fun e => triArea m e * triAbs m e v).sum := by
    rw [← List.sum_map_mul_left]
    refine list_near fun e he => ?_
    have hcont : ContinuousOn (fun x => ∑ q, force l Fx Fy x q * triEps m e v q) (hull m e) := by
      refine continuousOn_finsetSum _ fun q _ => ContinuousOn.mul ?_ continuousOn_const
      exact continuousOn_finsetSum _ fun p _ => (strain_cont hF he p).mul (lam_cont hl he (abd_lamData p q))
    have e1 : ((m.tria e).edgeIds.map fun k => triArea m e / 3 * ∑ q, force l Fx Fy (pt m k.1) q * triEps m e v q).sum =
        triArea m e * (((m.tria e).edgeIds.map fun k => ∑ q, force l Fx Fy (pt m k.1) q * triEps m e v q).sum / (m.tria e).edgeIds.length) := by
      have : (m.tria e).edgeIds.length = 3 := rfl
      rw [List.sum_map_mul_left, this]; push_cast; ring
    rw [e1]
    refine (integral_near hcont (β := B' * triAbs m e v) fun x hx => ?_).trans (le_of_eq (by ring))
    refine average_near _ (by simp [Tria.edgeIds]) fun k hk => six_le fun q => ?_
    obtain ⟨hk, ht⟩ := side_trias w he hk
    exact force_lip hL1 hl hM hF hh he (pt_mem_hull (edge_tria w hp hk ht).2.1) hx q
  rw [step2] at step1
  have := abs_sub_le (energy m pn z v) ((m.eids.map fun e => ((m.tria e).edgeIds.map fun k => triArea m e / 3 * ∑ q, force l Fx Fy (pt m k.1) q * triEps m e v q).sum).sum)
    ((m.eids.map fun e => ∫ x in hull m e, ∑ q, force l Fx Fy x q * triEps m e v q).sum)
  linarith

end

end Meshless
