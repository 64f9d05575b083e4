import Verif.Spec.Cst
import Verif.Lemmas.Modes
import Verif.Lemmas.Divergence
import Verif.Props.K0Energy
import Mathlib.Algebra.BigOperators.Field

/-! Smoothed strains are averages of the strains of constant strain triangles. -/

set_option autoImplicit false

namespace Meshless
open Spec Finset

/-- what averaging two points with weights `a` and `b` takes from a quadratic form -/
theorem quad_two {ι : Type} [Fintype ι] (C : ι → ι → ℝ) {a b : ℝ} (ha : 0 < a) (hb : 0 < b) {x y z : ι → ℝ}
    (hz : ∀ p, (a + b) * z p = a * x p + b * y p) :
    a * ∑ p, ∑ q, x p * C p q * x q + b * ∑ p, ∑ q, y p * C p q * y q =
      (a + b) * ∑ p, ∑ q, z p * C p q * z q + a * b / (a + b) * ∑ p, ∑ q, (x p - y p) * C p q * (x q - y q) := by
  have hab : 0 < a + b := by linarith
  have key : (a + b) * (a * ∑ p, ∑ q, x p * C p q * x q + b * ∑ p, ∑ q, y p * C p q * y q) =
      (a + b) * ((a + b) * ∑ p, ∑ q, z p * C p q * z q) + a * b * ∑ p, ∑ q, (x p - y p) * C p q * (x q - y q) := by
    simp only [mul_sum, ← sum_add_distrib]
    refine sum_congr rfl fun p _ => sum_congr rfl fun q _ => ?_
    have : (a + b) * ((a + b) * (z p * C p q * z q)) = ((a + b) * z p) * C p q * ((a + b) * z q) := by ring
    rw [this, hz, hz]; ring
  apply mul_left_cancel₀ hab.ne'
  rw [key]
  field_simp

theorem abs_cr {m : Mesh} {t o : ℕ} {k : Key} (hs : Side m t k o) : |cr m k.1 k.2 o| = 2 * triArea m t := by
  have h := triArea_side hs
  have : sarea m [[k.1], [k.2], corners m t] = cr m k.1 k.2 o / 6 := by
    rw [sarea3]; simp only [mean_single, mean_corners hs]; unfold cr; ring
  rw [this, abs_div, abs_of_pos (by norm_num : (0:ℝ) < 6)] at h
  linarith

theorem triArea_pos {m : Mesh} (hg : Planar m) {t : ℕ} (ht : t ∈ m.eids) : 0 < triArea m t := abs_pos.2 (hg.nondeg t ht)

theorem tri_grad {m : Mesh} (hg : Planar m) {t : ℕ} (ht : t ∈ m.eids) {f : ℕ → ℝ} {c p q : ℝ} (h : Aff m t f c p q) :
    gradX m (tpoly m t) f = p ∧ gradY m (tpoly m t) f = q := by
  have h0 : sarea m (tpoly m t) ≠ 0 := hg.nondeg t ht
  have h1 := h _ (Or.inl rfl)
  have h2 := h _ (Or.inr (Or.inl rfl))
  have h3 := h _ (Or.inr (Or.inr rfl))
  unfold gradX gradY
  rw [div_eq_iff h0, div_eq_iff h0]
  unfold tpoly
  rw [circDy3, circDx3, sarea3]
  simp only [mean_single, h1, h2, h3]
  constructor <;> ring

/-- the smoothed gradient of a domain is the average of the gradients of its triangles, weighted with their areas -/
theorem grad_avg {m : Mesh} (w : WF m) (hp : Proper m) (hg : Planar m) {k : Key} (hk : k ∈ m.ekeys) (f : ℕ → ℝ) :
    ((m.edge k).trias.map (triArea m)).sum * gradX m (dom m k) f = ((m.edge k).trias.map fun t => triArea m t * gradX m (tpoly m t) f).sum ∧
    ((m.edge k).trias.map (triArea m)).sum * gradY m (dom m k) f = ((m.edge k).trias.map fun t => triArea m t * gradY m (tpoly m t) f).sum := by
  rcases edge_shape w hp hk with ⟨t, o, htr, hs, _⟩ | ⟨t1, t2, o1, o2, htr, hs1, hs2, _, _, _, _⟩
  · obtain ⟨c, p, q, h⟩ := aff_exists w hp hg hs.mem f
    obtain ⟨e1, e2⟩ := grad_boundary hg htr hs h
    obtain ⟨e3, e4⟩ := tri_grad hg hs.mem h
    rw [e1, e2, htr]
    simp [e3, e4]
  · obtain ⟨c1, p1, q1, h1⟩ := aff_exists w hp hg hs1.mem f
    obtain ⟨c2, p2, q2, h2⟩ := aff_exists w hp hg hs2.mem f
    obtain ⟨e1, e2⟩ := grad_interior hg hk htr hs1 hs2 h1 h2
    obtain ⟨e3, e4⟩ := tri_grad hg hs1.mem h1
    obtain ⟨e5, e6⟩ := tri_grad hg hs2.mem h2
    have a1 := abs_cr hs1
    have a2 := abs_cr hs2
    have hop := cr_opposite hg hk htr hs1 hs2
    rw [e1, e2, htr]
    simp only [List.map_cons, List.map_nil, List.sum_cons, List.sum_nil, add_zero, e3, e4, e5, e6]
    rcases mul_neg_iff.1 hop with ⟨s1, s2⟩ | ⟨s1, s2⟩
    · rw [abs_of_pos s1] at a1; rw [abs_of_neg s2] at a2
      have hne : cr m k.1 k.2 o2 - cr m k.1 k.2 o1 ≠ 0 := by linarith
      rw [mul_div_assoc', mul_div_assoc', div_eq_iff hne, div_eq_iff hne]
      have b1 : triArea m t1 = cr m k.1 k.2 o1 / 2 := by linarith
      have b2 : triArea m t2 = -cr m k.1 k.2 o2 / 2 := by linarith
      rw [b1, b2]
      constructor <;> ring
    · rw [abs_of_neg s1] at a1; rw [abs_of_pos s2] at a2
      have hne : cr m k.1 k.2 o2 - cr m k.1 k.2 o1 ≠ 0 := by linarith
      rw [mul_div_assoc', mul_div_assoc', div_eq_iff hne, div_eq_iff hne]
      have b1 : triArea m t1 = -cr m k.1 k.2 o1 / 2 := by linarith
      have b2 : triArea m t2 = cr m k.1 k.2 o2 / 2 := by linarith
      rw [b1, b2]
      constructor <;> ring

theorem eps_avg {m : Mesh} (w : WF m) (hp : Proper m) (hg : Planar m) {k : Key} (hk : k ∈ m.ekeys) (v : ℕ → ℝ) (p : Fin 6) :
    ((m.edge k).trias.map (triArea m)).sum * eps m k v p = ((m.edge k).trias.map fun t => triArea m t * triEps m t v p).sum := by
  have h := fun f => grad_avg w hp hg hk f
  unfold eps triEps
  fin_cases p
  · exact (h _).1
  · exact (h _).2
  · change _ * (_ + _) = (List.map (fun t => _ * (_ + _)) _).sum
    simp only [mul_add, List.sum_map_add]
    rw [(h _).1, (h _).2]
  · exact (h _).1
  · exact (h _).2
  · change _ * (_ + _) = (List.map (fun t => _ * (_ + _)) _).sum
    simp only [mul_add, List.sum_map_add]
    rw [(h _).1, (h _).2]

theorem dom_area {m : Mesh} (w : WF m) (hp : Proper m) (hg : Planar m) {k : Key} (hk : k ∈ m.ekeys) :
    |sarea m (dom m k)| = ((m.edge k).trias.map (triArea m)).sum / 3 := by
  rcases edge_shape w hp hk with ⟨t, o, htr, hs, _⟩ | ⟨t1, t2, o1, o2, htr, hs1, hs2, _, _, _, _⟩
  · have hdom : dom m k = [[k.1], corners m t, [k.2]] := by simp [dom, htr]
    have hS : sarea m [[k.1], corners m t, [k.2]] = -sarea m [[k.1], [k.2], corners m t] := by
      rw [sarea3, sarea3]; ring
    rw [hdom, hS, abs_neg, triArea_side hs, htr]; simp
  · have hdom : dom m k = [[k.1], corners m t1, [k.2], corners m t2] := by simp [dom, htr]
    have hop := hg.opposite k hk t1 t2 htr
    have hS : sarea m [[k.1], corners m t1, [k.2], corners m t2] = -sarea m [[k.1], [k.2], corners m t1] + sarea m [[k.1], [k.2], corners m t2] := by
      simp only [sarea4, sarea3]; ring
    have e1 := triArea_side hs1
    have e2 := triArea_side hs2
    rw [hdom, hS, htr]
    simp only [List.map_cons, List.map_nil, List.sum_cons, List.sum_nil, add_zero]
    rcases mul_neg_iff.1 hop with ⟨s1, s2⟩ | ⟨s1, s2⟩
    · rw [abs_of_pos s1] at e1; rw [abs_of_neg s2] at e2
      rw [abs_of_neg (by linarith)]; linarith
    · rw [abs_of_neg s1] at e1; rw [abs_of_pos s2] at e2
      rw [abs_of_pos (by linarith)]; linarith

/-- the energy of a domain and the energy its triangles have in it -/
theorem dom_energy_cst {m : Mesh} (w : WF m) (hp : Proper m) (hg : Planar m) {k : Key} (hk : k ∈ m.ekeys) (l : Lam) (v : ℕ → ℝ) :
    ((m.edge k).trias.map fun t => triArea m t / 3 * ∑ p, ∑ q, triEps m t v p * abd l p q * triEps m t v q).sum =
      |sarea m (dom m k)| * (∑ p, ∑ q, eps m k v p * abd l p q * eps m k v q) + jumpEnergy m l k v := by
  have ha := eps_avg w hp hg hk v
  rw [dom_area w hp hg hk]
  unfold jumpEnergy
  rcases edge_shape w hp hk with ⟨t, o, htr, hs, _⟩ | ⟨t1, t2, o1, o2, htr, hs1, hs2, _, _, _, _⟩
  · rw [htr] at ha ⊢
    simp only [List.map_cons, List.map_nil, List.sum_cons, List.sum_nil, add_zero] at ha ⊢
    have h0 := (triArea_pos hg hs.mem).ne'
    have : ∀ p, eps m k v p = triEps m t v p := fun p => mul_left_cancel₀ h0 (ha p)
    simp only [this]
  · rw [htr] at ha ⊢
    simp only [List.map_cons, List.map_nil, List.sum_cons, List.sum_nil, add_zero] at ha ⊢
    have h1 := triArea_pos hg hs1.mem
    have h2 := triArea_pos hg hs2.mem
    have := quad_two (abd l) h1 h2 ha
    have e : triArea m t1 * triArea m t2 / (3 * (triArea m t1 + triArea m t2)) = triArea m t1 * triArea m t2 / (triArea m t1 + triArea m t2) / 3 := by
      field_simp
    rw [e]
    linarith

theorem energy_cst {m : Mesh} (w : WF m) (hp : Proper m) (hg : Planar m) {pn : Bool} {l : Lam} (hh : Homog m pn l) (v : ℕ → ℝ) :
    cstEnergy m (fun _ => l) v v = energy m pn v v + (m.ekeys.map fun k => jumpEnergy m l k v).sum := by
  unfold energy cstEnergy
  have hs := sum_sideTrias m.tria (fun t => triArea m t / 3 * ∑ p, ∑ q, triEps m t v p * abd l p q * triEps m t v q) w.ekeys_nodup (es := m.eids)
    (fun e he k hk => (w.mem_ekeys k).2 ⟨e, he, hk⟩)
  symm
  calc _ = (m.ekeys.map fun k => ((m.edge k).trias.map fun t => triArea m t / 3 * ∑ p, ∑ q, triEps m t v p * abd l p q * triEps m t v q).sum).sum := by
        rw [← List.sum_map_add]
        congr 1
        refine List.map_congr_left fun k hk => ?_
        simp only [avg_const w hp hg hk (Homog_slot w hp hh)]
        exact (dom_energy_cst w hp hg hk l v).symm
    _ = (m.ekeys.map fun k => ((sideTrias m.tria m.eids k).map fun t => triArea m t / 3 * ∑ p, ∑ q, triEps m t v p * abd l p q * triEps m t v q).sum).sum := by
        congr 1
        refine List.map_congr_left fun k hk => ?_
        rw [w.etrias k hk]
    _ = _ := by
        rw [hs, ← List.sum_map_mul_left]
        congr 1
        refine List.map_congr_left fun e _ => ?_
        ring

/-! ### the matrix of the constant strain triangles -/

theorem gradX_lin {ι : Type} {m : Mesh} (s : Finset ι) (P : List (List ℕ)) (a : ι → ℝ) (f : ι → ℕ → ℝ) :
    gradX m P (fun i => ∑ x ∈ s, a x * f x i) = ∑ x ∈ s, a x * gradX m P (f x) := by
  have hm : ∀ l : List ℕ, mean (fun i => ∑ x ∈ s, a x * f x i) l = ∑ x ∈ s, a x * mean (f x) l := by
    intro l
    unfold mean
    have : (l.map fun i => ∑ x ∈ s, a x * f x i).sum = ∑ x ∈ s, a x * (l.map (f x)).sum := by
      induction l with
      | nil => simp
      | cons i l ih => simp only [List.map_cons, List.sum_cons, ih, mul_add, sum_add_distrib]
    rw [this, sum_div]
    exact sum_congr rfl fun x _ => by ring
  have hc : circDy m P (fun i => ∑ x ∈ s, a x * f x i) = ∑ x ∈ s, a x * circDy m P (f x) := by
    unfold circDy
    induction sides P with
    | nil => simp
    | cons i l ih =>
      simp only [List.map_cons, List.sum_cons]
      rw [ih, hm, hm]
      simp only [mul_add, sum_add_distrib]
      congr 1
      rw [← sum_add_distrib, sum_div, sum_mul]
      exact sum_congr rfl fun x _ => by ring
  unfold gradX
  rw [hc, sum_div]
  exact sum_congr rfl fun x _ => by ring

theorem gradY_lin {ι : Type} {m : Mesh} (s : Finset ι) (P : List (List ℕ)) (a : ι → ℝ) (f : ι → ℕ → ℝ) :
    gradY m P (fun i => ∑ x ∈ s, a x * f x i) = ∑ x ∈ s, a x * gradY m P (f x) := by
  have hm : ∀ l : List ℕ, mean (fun i => ∑ x ∈ s, a x * f x i) l = ∑ x ∈ s, a x * mean (f x) l := by
    intro l
    unfold mean
    have : (l.map fun i => ∑ x ∈ s, a x * f x i).sum = ∑ x ∈ s, a x * (l.map (f x)).sum := by
      induction l with
      | nil => simp
      | cons i l ih => simp only [List.map_cons, List.sum_cons, ih, mul_add, sum_add_distrib]
    rw [this, sum_div]
    exact sum_congr rfl fun x _ => by ring
  have hc : circDx m P (fun i => ∑ x ∈ s, a x * f x i) = ∑ x ∈ s, a x * circDx m P (f x) := by
    unfold circDx
    induction sides P with
    | nil => simp
    | cons i l ih =>
      simp only [List.map_cons, List.sum_cons]
      rw [ih, hm, hm]
      simp only [mul_add, sum_add_distrib]
      congr 1
      rw [← sum_add_distrib, sum_div, sum_mul]
      exact sum_congr rfl fun x _ => by ring
  unfold gradY
  rw [hc, neg_div, sum_div, ← sum_neg_distrib]
  exact sum_congr rfl fun x _ => by ring

theorem gradX_tri_congr {m : Mesh} {t : ℕ} {f g : ℕ → ℝ} (h : ∀ i, IsCorner m t i → f i = g i) : gradX m (tpoly m t) f = gradX m (tpoly m t) g ∧
    gradY m (tpoly m t) f = gradY m (tpoly m t) g := by
  unfold gradX gradY tpoly
  rw [circDy3, circDy3, circDx3, circDx3]
  simp only [mean_single, h _ (Or.inl rfl), h _ (Or.inr (Or.inl rfl)), h _ (Or.inr (Or.inr rfl))]
  exact ⟨trivial, trivial⟩

theorem triEps_lin {m : Mesh} (w : WF m) (hp : Proper m) {t : ℕ} (ht : t ∈ m.eids) (v : ℕ → ℝ) (p : Fin 6) :
    triEps m t v p = ∑ i ∈ range (5 * m.nids.length), v i * triEps m t (single i) p := by
  have hd : ∀ r < 5, ∀ i, IsCorner m t i → disp m v r i = ∑ a ∈ range (5 * m.nids.length), v a * disp m (single a) r i := by
    intro r hr i hi
    have := List.idxOf_lt_length_iff.2 (corner_mem w hp.distinct ht hi)
    unfold disp single
    simp only [mul_ite, mul_one, mul_zero]
    rw [sum_ite_eq, if_pos (mem_range.2 (by omega))]
  have hx : ∀ r < 5, gradX m (tpoly m t) (disp m v r) = ∑ a ∈ range (5 * m.nids.length), v a * gradX m (tpoly m t) (disp m (single a) r) := fun r hr => by
    rw [(gradX_tri_congr (hd r hr)).1, gradX_lin]
  have hy : ∀ r < 5, gradY m (tpoly m t) (disp m v r) = ∑ a ∈ range (5 * m.nids.length), v a * gradY m (tpoly m t) (disp m (single a) r) := fun r hr => by
    rw [(gradX_tri_congr (hd r hr)).2, gradY_lin]
  unfold triEps
  fin_cases p
  · exact hx 0 (by norm_num)
  · exact hy 1 (by norm_num)
  · change _ + _ = ∑ i ∈ _, _ * (_ + _)
    rw [hx 1 (by norm_num), hy 0 (by norm_num), ← sum_add_distrib]
    exact sum_congr rfl fun a _ => by rw [mul_add]
  · exact hx 3 (by norm_num)
  · exact hy 4 (by norm_num)
  · change _ + _ = ∑ i ∈ _, _ * (_ + _)
    rw [hx 4 (by norm_num), hy 3 (by norm_num), ← sum_add_distrib]
    exact sum_congr rfl fun a _ => by rw [mul_add]

theorem cst_form {m : Mesh} (w : WF m) (hp : Proper m) (l : ℕ → Lam) (v u : ℕ → ℝ) :
    form (5 * m.nids.length) (cstMat m l).get v u = cstEnergy m l v u := by
  change ∑ i ∈ _, ∑ j ∈ _, v i * cstEnergy m l (single i) (single j) * u j = _
  unfold cstEnergy
  have hl : ∀ (L : List ℕ) (F : ℕ → ℕ → ℕ → ℝ), ∑ i ∈ range (5 * m.nids.length), ∑ j ∈ range (5 * m.nids.length), v i * (L.map fun e => F e i j).sum * u j =
      (L.map fun e => ∑ i ∈ range (5 * m.nids.length), ∑ j ∈ range (5 * m.nids.length), v i * F e i j * u j).sum := by
    intro L F
    induction L with
    | nil => simp
    | cons e L ih => simp only [List.map_cons, List.sum_cons, ← ih, ← sum_add_distrib, mul_add, add_mul]
  rw [hl]
  congr 1
  refine List.map_congr_left fun e he => ?_
  set n := 5 * m.nids.length
  have e1 : ∀ p q, triEps m e v p * abd (l e) p q * triEps m e u q = ∑ i ∈ range n, ∑ j ∈ range n, v i * (triEps m e (single i) p * abd (l e) p q * triEps m e (single j) q) * u j := by
    intro p q
    rw [triEps_lin w hp he v p, triEps_lin w hp he u q, sum_mul, sum_mul]
    refine sum_congr rfl fun i _ => ?_
    rw [mul_sum]
    exact sum_congr rfl fun j _ => by ring
  simp only [e1]
  have e2 : ∀ i j, v i * (triArea m e * ∑ p, ∑ q, triEps m e (single i) p * abd (l e) p q * triEps m e (single j) q) * u j =
      triArea m e * ∑ p, ∑ q, v i * (triEps m e (single i) p * abd (l e) p q * triEps m e (single j) q) * u j := by
    intro i j
    simp only [mul_sum, sum_mul]
    refine sum_congr rfl fun p _ => sum_congr rfl fun q _ => by ring
  simp only [e2, ← mul_sum]
  congr 1
  rw [sum_congr rfl fun i (_ : i ∈ range n) => sum_comm, sum_comm]
  refine sum_congr rfl fun p _ => ?_
  rw [sum_congr rfl fun i (_ : i ∈ range n) => sum_comm, sum_comm]

theorem abd_symm (l : Lam) (p q : Fin 6) : abd l p q = abd l q p := by
  fin_cases p <;> fin_cases q <;> rfl

theorem cst_symm {m : Mesh} {l : ℕ → Lam} (v u : ℕ → ℝ) : cstEnergy m l v u = cstEnergy m l u v := by
  unfold cstEnergy
  congr 1
  refine List.map_congr_left fun e _ => ?_
  congr 1
  rw [sum_comm]
  refine sum_congr rfl fun p _ => sum_congr rfl fun q _ => ?_
  rw [abd_symm (l e) q p]; ring

end Meshless
