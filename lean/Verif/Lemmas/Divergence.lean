import Verif.Lemmas.ShearModes
import Verif.Props.K0Energy

/-! The divergence theorem on a mesh: area times smoothed gradient, added up over all edges, is an integral over the boundary edges. -/

set_option autoImplicit false

namespace Meshless
open Spec Finset

theorem sum_count_mul {ks : List Key} (hnd : ks.Nodup) (h : Key → ℝ) : ∀ {l : List Key}, (∀ k ∈ l, k ∈ ks) → (ks.map fun k => (l.count k : ℝ) * h k).sum = (l.map h).sum := by
  intro l
  rw [← List.sum_toFinset _ hnd]
  induction l with
  | nil => intro _; simp
  | cons x l ih =>
    intro hl
    rw [List.map_cons, List.sum_cons, ← ih fun k hk => hl k (List.mem_cons_of_mem _ hk)]
    have hx : x ∈ ks.toFinset := List.mem_toFinset.2 (hl x (by simp))
    have : ∀ k, ((x :: l).count k : ℝ) * h k = (if x = k then h k else 0) + (l.count k : ℝ) * h k := by
      intro k
      rw [List.count_cons]
      by_cases hk : x = k
      · simp [hk]; ring
      · simp [hk]
    simp only [this]
    rw [Finset.sum_add_distrib, Finset.sum_ite_eq, if_pos hx]

/-- sum over sides of a sum over the triangles at that side, of a quantity that depends on both -/
theorem sum_sideTrias2 (tria : ℕ → Tria) (g : ℕ → Key → ℝ) {ks : List Key} (hnd : ks.Nodup) : ∀ {es : List ℕ},
    (∀ e ∈ es, ∀ k ∈ (tria e).edgeIds, k ∈ ks) →
    (ks.map fun k => ((sideTrias tria es k).map fun e => g e k).sum).sum = (es.map fun e => ((tria e).edgeIds.map (g e)).sum).sum := by
  intro es
  induction es with
  | nil => intro _; simp [sideTrias]
  | cons e es ih =>
    intro h
    have h1 : ∀ k, ((sideTrias tria (e :: es) k).map fun e => g e k).sum = ((tria e).edgeIds.count k : ℝ) * g e k + ((sideTrias tria es k).map fun e => g e k).sum := by
      intro k; simp [sideTrias]
    simp only [h1, List.sum_map_add, ih fun x hx => h x (List.mem_cons_of_mem _ hx), List.map_cons, List.sum_cons, sum_count_mul hnd (g e) (h e (by simp))]

/-- direction in which a triangle's boundary (counter-clockwise) runs through a side -/
noncomputable def side (m : Mesh) (t : ℕ) (k : Key) : ℝ := if 0 < sarea m [[k.1], [k.2], corners m t] then 1 else -1

/-- `∫ f dy` over a side, in the direction of the triangle's boundary -/
noncomputable def fluxX (m : Mesh) (f : ℕ → ℝ) (t : ℕ) (k : Key) : ℝ := side m t k * ((f k.1 + f k.2) / 2 * (ny m k.2 - ny m k.1))
/-- `-∫ f dx` over a side, in the direction of the triangle's boundary -/
noncomputable def fluxY (m : Mesh) (f : ℕ → ℝ) (t : ℕ) (k : Key) : ℝ := side m t k * (-((f k.1 + f k.2) / 2 * (nx m k.2 - nx m k.1)))

theorem side_swap {m : Mesh} {t a b : ℕ} (h : sarea m [[a], [b], corners m t] ≠ 0) : side m t (b, a) = -side m t (a, b) := by
  unfold side
  have : sarea m [[b], [a], corners m t] = -sarea m [[a], [b], corners m t] := by rw [sarea3, sarea3]; ring
  dsimp only
  rw [this]
  rcases lt_or_gt_of_ne h with h | h
  · rw [if_pos (by linarith), if_neg (by linarith)]; norm_num
  · rw [if_neg (by linarith), if_pos (by linarith)]

theorem flux_sort {m : Mesh} {f : ℕ → ℝ} {t a b : ℕ} (h : sarea m [[a], [b], corners m t] ≠ 0) :
    fluxX m f t (sortPair a b) = fluxX m f t (a, b) ∧ fluxY m f t (sortPair a b) = fluxY m f t (a, b) := by
  unfold sortPair
  split
  · exact ⟨rfl, rfl⟩
  · unfold fluxX fluxY
    rw [side_swap h]
    constructor <;> (dsimp only; ring)

theorem sarea_sides {m : Mesh} (t : ℕ) :
    sarea m [[(m.tria t).n1], [(m.tria t).n2], corners m t] = sarea m [[(m.tria t).n1], [(m.tria t).n2], [(m.tria t).n3]] / 3 ∧
    sarea m [[(m.tria t).n2], [(m.tria t).n3], corners m t] = sarea m [[(m.tria t).n1], [(m.tria t).n2], [(m.tria t).n3]] / 3 ∧
    sarea m [[(m.tria t).n3], [(m.tria t).n1], corners m t] = sarea m [[(m.tria t).n1], [(m.tria t).n2], [(m.tria t).n3]] / 3 := by
  simp only [sarea3, mean_single]
  simp only [mean, corners, List.map_cons, List.map_nil, List.sum_cons, List.sum_nil, List.length_cons, List.length_nil]
  push_cast
  refine ⟨?_, ?_, ?_⟩ <;> ring

/-- area times gradient of one triangle, as a sum over its sides -/
theorem tria_flux {m : Mesh} (hg : Planar m) {t : ℕ} (ht : t ∈ m.eids) {f : ℕ → ℝ} {c p q : ℝ} (h : Aff m t f c p q) :
    ((m.tria t).edgeIds.map (fluxX m f t)).sum = triArea m t * p ∧ ((m.tria t).edgeIds.map (fluxY m f t)).sum = triArea m t * q := by
  obtain ⟨s1, s2, s3⟩ := sarea_sides (m := m) t
  have h0 := hg.nondeg t ht
  have v1 := h (m.tria t).n1 (Or.inl rfl)
  have v2 := h (m.tria t).n2 (Or.inr (Or.inl rfl))
  have v3 := h (m.tria t).n3 (Or.inr (Or.inr rfl))
  obtain ⟨a1, b1⟩ := flux_sort (f := f) (show sarea m [[(m.tria t).n1], [(m.tria t).n2], corners m t] ≠ 0 by rw [s1]; exact div_ne_zero h0 (by norm_num))
  obtain ⟨a2, b2⟩ := flux_sort (f := f) (show sarea m [[(m.tria t).n2], [(m.tria t).n3], corners m t] ≠ 0 by rw [s2]; exact div_ne_zero h0 (by norm_num))
  obtain ⟨a3, b3⟩ := flux_sort (f := f) (show sarea m [[(m.tria t).n3], [(m.tria t).n1], corners m t] ≠ 0 by rw [s3]; exact div_ne_zero h0 (by norm_num))
  unfold Tria.edgeIds
  simp only [List.map_cons, List.map_nil, List.sum_cons, List.sum_nil, a1, a2, a3, b1, b2, b3]
  unfold fluxX fluxY side
  dsimp only
  rw [s1, s2, s3, v1, v2, v3]
  unfold triArea
  have hS : sarea m [[(m.tria t).n1], [(m.tria t).n2], [(m.tria t).n3]] =
      ((nx m (m.tria t).n2 - nx m (m.tria t).n1) * (ny m (m.tria t).n3 - ny m (m.tria t).n1) -
        (nx m (m.tria t).n3 - nx m (m.tria t).n1) * (ny m (m.tria t).n2 - ny m (m.tria t).n1)) / 2 := by
    rw [sarea3]; simp only [mean_single]
  rcases lt_or_gt_of_ne h0 with h0 | h0
  · rw [if_neg (by linarith), abs_of_neg h0, hS]; constructor <;> ring
  · rw [if_pos (by linarith), abs_of_pos h0, hS]; constructor <;> ring

/-- area times smoothed gradient of a domain: a third of that of its triangles -/
theorem dom_flux {m : Mesh} (w : WF m) (hp : Proper m) (hg : Planar m) {k : Key} (hk : k ∈ m.ekeys) {f : ℕ → ℝ} {P Q : ℕ → ℝ}
    (h : ∀ t ∈ m.eids, ∃ c, Aff m t f c (P t) (Q t)) :
    |sarea m (dom m k)| * gradX m (dom m k) f = ((m.edge k).trias.map fun t => triArea m t * P t).sum / 3 ∧
    |sarea m (dom m k)| * gradY m (dom m k) f = ((m.edge k).trias.map fun t => triArea m t * Q t).sum / 3 := by
  rcases edge_shape w hp hk with ⟨t, o, htr, hs, _⟩ | ⟨t1, t2, o1, o2, htr, hs1, hs2, _, _, _, _⟩
  · obtain ⟨c, hA⟩ := h t hs.mem
    obtain ⟨g1, g2⟩ := grad_boundary hg htr hs hA
    have hdom : dom m k = [[k.1], corners m t, [k.2]] := by simp [dom, htr]
    have hS : sarea m [[k.1], corners m t, [k.2]] = -sarea m [[k.1], [k.2], corners m t] := by
      rw [sarea3, sarea3]; ring
    rw [g1, g2, hdom, hS, abs_neg, triArea_side hs, htr]
    simp only [List.map_cons, List.map_nil, List.sum_cons, List.sum_nil]
    constructor <;> ring
  · obtain ⟨c1, hA1⟩ := h t1 hs1.mem
    obtain ⟨c2, hA2⟩ := h t2 hs2.mem
    obtain ⟨g1, g2⟩ := grad_interior hg hk htr hs1 hs2 hA1 hA2
    have hop := cr_opposite hg hk htr hs1 hs2
    have hdom : dom m k = [[k.1], corners m t1, [k.2], corners m t2] := by simp [dom, htr]
    have c1 : ∀ {t o}, Side m t k o → sarea m [[k.1], [k.2], corners m t] = cr m k.1 k.2 o / 6 := by
      intro t o hs
      rw [sarea3, mean_corners hs, mean_corners hs]; simp only [mean_single]; unfold cr; ring
    have hS : sarea m (dom m k) = (cr m k.1 k.2 o2 - cr m k.1 k.2 o1) / 6 := by
      rw [hdom, show sarea m [[k.1], corners m t1, [k.2], corners m t2] = -sarea m [[k.1], [k.2], corners m t1] + sarea m [[k.1], [k.2], corners m t2] by
        simp only [sarea4, sarea3]; ring, c1 hs1, c1 hs2]; ring
    have e1 := triArea_side hs1
    have e2 := triArea_side hs2
    rw [c1 hs1] at e1
    rw [c1 hs2] at e2
    rw [g1, g2, hS, htr]
    simp only [List.map_cons, List.map_nil, List.sum_cons, List.sum_nil, add_zero]
    rcases mul_neg_iff.1 hop with ⟨p1, p2⟩ | ⟨p1, p2⟩
    · rw [abs_of_pos (by linarith)] at e1; rw [abs_of_neg (by linarith)] at e2
      have hne : cr m k.1 k.2 o2 - cr m k.1 k.2 o1 ≠ 0 := by intro h; linarith
      rw [abs_of_neg (by linarith), show triArea m t1 = cr m k.1 k.2 o1 / 2 by linarith, show triArea m t2 = -cr m k.1 k.2 o2 / 2 by linarith]
      constructor <;> (field_simp; ring)
    · rw [abs_of_neg (by linarith)] at e1; rw [abs_of_pos (by linarith)] at e2
      have hne : cr m k.1 k.2 o2 - cr m k.1 k.2 o1 ≠ 0 := by intro h; linarith
      rw [abs_of_pos (by linarith), show triArea m t1 = -cr m k.1 k.2 o1 / 2 by linarith, show triArea m t2 = cr m k.1 k.2 o2 / 2 by linarith]
      constructor <;> (field_simp; ring)

/-- divergence theorem: only the boundary edges remain -/
theorem divergence {m : Mesh} (w : WF m) (hp : Proper m) (hg : Planar m) (f : ℕ → ℝ) :
    (m.ekeys.map fun k => |sarea m (dom m k)| * gradX m (dom m k) f).sum =
      (m.ekeys.map fun k => match (m.edge k).trias with | [t] => fluxX m f t k | _ => 0).sum ∧
    (m.ekeys.map fun k => |sarea m (dom m k)| * gradY m (dom m k) f).sum =
      (m.ekeys.map fun k => match (m.edge k).trias with | [t] => fluxY m f t k | _ => 0).sum := by
  have hA : ∀ t : ℕ, ∃ P Q, t ∈ m.eids → ∃ c, Aff m t f c P Q := by
    intro t
    by_cases ht : t ∈ m.eids
    · obtain ⟨c, p, q, h⟩ := aff_exists w hp hg ht f
      exact ⟨p, q, fun _ => ⟨c, h⟩⟩
    · exact ⟨0, 0, fun h => absurd h ht⟩
  choose P Q hPQ using hA
  have hin : ∀ e ∈ m.eids, ∀ k ∈ (m.tria e).edgeIds, k ∈ m.ekeys := fun e he k hk => (w.mem_ekeys k).2 ⟨e, he, hk⟩
  have main : ∀ (G : Key → ℝ) (R : ℕ → ℝ) (F : ℕ → Key → ℝ), (∀ k ∈ m.ekeys, |sarea m (dom m k)| * G k = ((m.edge k).trias.map fun t => triArea m t * R t).sum / 3) →
      (∀ t ∈ m.eids, ((m.tria t).edgeIds.map (F t)).sum = triArea m t * R t) → (∀ k ∈ m.ekeys, ∀ t1 t2, (m.edge k).trias = [t1, t2] → F t1 k + F t2 k = 0) →
      (m.ekeys.map fun k => |sarea m (dom m k)| * G k).sum = (m.ekeys.map fun k => match (m.edge k).trias with | [t] => F t k | _ => 0).sum := by
    intro G R F h1 h2 h3
    have e1 : (m.ekeys.map fun k => |sarea m (dom m k)| * G k) =
        m.ekeys.map fun k => ((sideTrias m.tria m.eids k).map fun t => triArea m t * R t).sum * (1 / 3) := by
      refine List.map_congr_left fun k hk => ?_
      rw [h1 k hk, w.etrias k hk]; ring
    rw [e1, List.sum_map_mul_right, sum_sideTrias m.tria (fun t => triArea m t * R t) w.ekeys_nodup hin]
    have e2 : (m.eids.map fun t => triArea m t * R t) = m.eids.map fun t => ((m.tria t).edgeIds.map (F t)).sum :=
      List.map_congr_left fun t ht => (h2 t ht).symm
    rw [e2, ← sum_sideTrias2 m.tria F w.ekeys_nodup hin]
    have e3 : (m.ekeys.map fun k => ((sideTrias m.tria m.eids k).map fun e => F e k).sum) =
        m.ekeys.map fun k => match (m.edge k).trias with | [t] => F t k | _ => 0 := by
      refine List.map_congr_left fun k hk => ?_
      rw [← w.etrias k hk]
      rcases edge_shape w hp hk with ⟨t, o, htr, _⟩ | ⟨t1, t2, o1, o2, htr, _⟩
      · rw [htr]; simp
      · rw [htr]
        simp only [List.map_cons, List.map_nil, List.sum_cons, List.sum_nil, add_zero]
        exact h3 k hk t1 t2 htr
    rw [e3]; ring
  have hopp : ∀ k ∈ m.ekeys, ∀ t1 t2, (m.edge k).trias = [t1, t2] → side m t1 k + side m t2 k = 0 := by
    intro k hk t1 t2 htr
    have h := hg.opposite k hk t1 t2 htr
    unfold side
    rcases mul_neg_iff.1 h with ⟨a, b⟩ | ⟨a, b⟩
    · rw [if_pos a, if_neg (by linarith)]; norm_num
    · rw [if_neg (by linarith), if_pos b]; norm_num
  constructor
  · refine main _ P (fluxX m f) (fun k hk => (dom_flux w hp hg hk fun t ht => hPQ t ht).1) (fun t ht => ?_) (fun k hk t1 t2 htr => ?_)
    · obtain ⟨c, hc⟩ := hPQ t ht
      exact (tria_flux hg ht hc).1
    · unfold fluxX; rw [← add_mul, hopp k hk t1 t2 htr, zero_mul]
  · refine main _ Q (fluxY m f) (fun k hk => (dom_flux w hp hg hk fun t ht => hPQ t ht).2) (fun t ht => ?_) (fun k hk t1 t2 htr => ?_)
    · obtain ⟨c, hc⟩ := hPQ t ht
      exact (tria_flux hg ht hc).2
    · unfold fluxY; rw [← add_mul, hopp k hk t1 t2 htr, zero_mul]

/-- a field that vanishes at the ends of all boundary edges has no mean gradient -/
theorem divergence_interior {m : Mesh} (w : WF m) (hp : Proper m) (hg : Planar m) {f : ℕ → ℝ}
    (hf : ∀ k ∈ m.ekeys, ∀ t, (m.edge k).trias = [t] → f k.1 = 0 ∧ f k.2 = 0) :
    (m.ekeys.map fun k => |sarea m (dom m k)| * gradX m (dom m k) f).sum = 0 ∧ (m.ekeys.map fun k => |sarea m (dom m k)| * gradY m (dom m k) f).sum = 0 := by
  obtain ⟨h1, h2⟩ := divergence w hp hg f
  rw [h1, h2]
  constructor
  · apply List.sum_eq_zero
    intro x hx
    obtain ⟨k, hk, rfl⟩ := List.mem_map.1 hx
    split
    · rename_i t ht
      obtain ⟨a, b⟩ := hf k hk t ht
      unfold fluxX; rw [a, b]; ring
    · rfl
  · apply List.sum_eq_zero
    intro x hx
    obtain ⟨k, hk, rfl⟩ := List.mem_map.1 hx
    split
    · rename_i t ht
      obtain ⟨a, b⟩ := hf k hk t ht
      unfold fluxY; rw [a, b]; ring
    · rfl

end Meshless
