import Verif.Lemmas.Energy
import Verif.Spec.Modes

/-! Every edge-connected part of a planar mesh has a boundary edge. -/

set_option autoImplicit false

namespace Meshless
open Spec

/-- increasing along angles in the half plane `0 ≤ x` -/
noncomputable def angleKey (x y : ℝ) : ℝ := y / (x + |y|)

theorem angleKey_lt {ax ay bx by' : ℝ} (ha : 0 < ax + |ay|) (hb : 0 < bx + |by'|) (hax : 0 ≤ ax) (hbx : 0 ≤ bx) (h : 0 < ax * by' - ay * bx) :
    angleKey ax ay < angleKey bx by' := by
  unfold angleKey
  rw [div_lt_div_iff₀ ha hb]
  rcases le_total 0 ay with h1 | h1 <;> rcases le_total 0 by' with h2 | h2
  · rw [abs_of_nonneg h1, abs_of_nonneg h2]; nlinarith
  · have := mul_nonneg h1 hbx
    have := mul_nonneg hax (neg_nonneg.2 h2)
    nlinarith
  · rw [abs_of_nonpos h1, abs_of_nonneg h2]
    have := mul_nonneg (neg_nonneg.2 h1) h2
    nlinarith
  · rw [abs_of_nonpos h1, abs_of_nonpos h2]; nlinarith

theorem corner_side {m : Mesh} (w : WF m) (hp : Proper m) {t a b : ℕ} (ht : t ∈ m.eids) (ha : IsCorner m t a) (hb : IsCorner m t b) (hab : a ≠ b) :
    ∃ k ∈ m.ekeys, t ∈ (m.edge k).trias ∧ (k = (a, b) ∨ k = (b, a)) := by
  rcases lt_or_gt_of_ne hab with h | h
  · have hk : (a, b) ∈ (m.tria t).edgeIds := (mem_edgeIds (hp.distinct t ht) _).2 ⟨h, ha, hb⟩
    have hm := (w.mem_ekeys (a, b)).2 ⟨t, ht, hk⟩
    exact ⟨(a, b), hm, by rw [w.etrias _ hm]; exact mem_sideTrias.2 ⟨ht, hk⟩, Or.inl rfl⟩
  · have hk : (b, a) ∈ (m.tria t).edgeIds := (mem_edgeIds (hp.distinct t ht) _).2 ⟨h, hb, ha⟩
    have hm := (w.mem_ekeys (b, a)).2 ⟨t, ht, hk⟩
    exact ⟨(b, a), hm, by rw [w.etrias _ hm]; exact mem_sideTrias.2 ⟨ht, hk⟩, Or.inr rfl⟩

/-- twice the signed area of the triangle of three nodes -/
noncomputable def cr (m : Mesh) (i j o : ℕ) : ℝ := (nx m j - nx m i) * (ny m o - ny m i) - (ny m j - ny m i) * (nx m o - nx m i)

theorem cr_ne {m : Mesh} (hg : Planar m) {t o : ℕ} {k : Key} (hs : Side m t k o) : cr m k.1 k.2 o ≠ 0 := by
  have h1 := triArea_side hs
  have h2 : triArea m t ≠ 0 := abs_ne_zero.2 (hg.nondeg t hs.mem)
  rw [sarea3, mean_corners hs, mean_corners hs] at h1
  simp only [mean_single] at h1
  intro h0
  apply h2
  have : ((nx m k.2 - nx m k.1) * ((ny m k.1 + ny m k.2 + ny m o) / 3 - ny m k.1) - ((nx m k.1 + nx m k.2 + nx m o) / 3 - nx m k.1) * (ny m k.2 - ny m k.1)) / 2
      = cr m k.1 k.2 o / 6 := by unfold cr; ring
  rw [this, h0, zero_div, abs_zero] at h1
  linarith

theorem cr_opposite {m : Mesh} (hg : Planar m) {k : Key} (hk : k ∈ m.ekeys) {t1 t2 o1 o2 : ℕ} (htr : (m.edge k).trias = [t1, t2])
    (hs1 : Side m t1 k o1) (hs2 : Side m t2 k o2) : cr m k.1 k.2 o1 * cr m k.1 k.2 o2 < 0 := by
  have h := hg.opposite k hk t1 t2 htr
  rw [sarea3, sarea3, mean_corners hs1, mean_corners hs1, mean_corners hs2, mean_corners hs2] at h
  simp only [mean_single] at h
  have : cr m k.1 k.2 o1 * cr m k.1 k.2 o2 = 36 * (((nx m k.2 - nx m k.1) * ((ny m k.1 + ny m k.2 + ny m o1) / 3 - ny m k.1) -
      ((nx m k.1 + nx m k.2 + nx m o1) / 3 - nx m k.1) * (ny m k.2 - ny m k.1)) / 2 *
      (((nx m k.2 - nx m k.1) * ((ny m k.1 + ny m k.2 + ny m o2) / 3 - ny m k.1) -
        ((nx m k.1 + nx m k.2 + nx m o2) / 3 - nx m k.1) * (ny m k.2 - ny m k.1)) / 2)) := by unfold cr; ring
  rw [this]
  linarith

/-- A set of triangles closed under adjacency has a boundary edge: at its leftmost node, the steepest edge. -/
theorem boundary_exists {m : Mesh} (w : WF m) (hp : Proper m) (hg : Planar m) (C : ℕ → Prop) (hC : ∀ e e', C e → Adjacent m e e' → C e')
    {e0 : ℕ} (he0 : e0 ∈ m.eids) (h0 : C e0) : ∃ k ∈ m.ekeys, ∃ t, (m.edge k).trias = [t] ∧ C t := by
  classical
  -- corners of the set
  let S : Finset ℕ := m.nids.toFinset.filter fun i => ∃ t ∈ m.eids, C t ∧ IsCorner m t i
  have hS : ∀ i, i ∈ S ↔ ∃ t ∈ m.eids, C t ∧ IsCorner m t i := by
    intro i
    simp only [S, Finset.mem_filter, List.mem_toFinset]
    exact ⟨fun h => h.2, fun h => ⟨by obtain ⟨t, ht, _, hi⟩ := h; exact corner_mem w hp.distinct ht hi, h⟩⟩
  have hne : S.Nonempty := ⟨(m.tria e0).n1, (hS _).2 ⟨e0, he0, h0, Or.inl rfl⟩⟩
  obtain ⟨i0, hi0, hx0⟩ := S.exists_min_image (nx m) hne
  obtain ⟨i, hi, hy⟩ := (S.filter fun i => nx m i = nx m i0).exists_min_image (ny m) ⟨i0, by simp [hi0]⟩
  simp only [Finset.mem_filter] at hi hy
  have hmin : ∀ j ∈ S, nx m i < nx m j ∨ (nx m i = nx m j ∧ ny m i ≤ ny m j) := by
    intro j hj
    rcases lt_or_eq_of_le (hx0 j hj) with h | h
    · left; rw [hi.2]; exact h
    · right; exact ⟨by rw [hi.2, h], hy j ⟨hj, h.symm⟩⟩
  obtain ⟨ti, hti, hCi, hci⟩ := (hS i).1 hi.1
  -- neighbours of the leftmost node
  let N : Finset ℕ := S.filter fun j => j ≠ i ∧ ∃ t ∈ m.eids, C t ∧ IsCorner m t i ∧ IsCorner m t j
  have hN : ∀ j, j ∈ N ↔ j ≠ i ∧ ∃ t ∈ m.eids, C t ∧ IsCorner m t i ∧ IsCorner m t j := by
    intro j
    simp only [N, Finset.mem_filter]
    exact ⟨fun h => h.2, fun h => ⟨by obtain ⟨_, t, ht, hc, _, hj⟩ := h; exact (hS j).2 ⟨t, ht, hc, hj⟩, h⟩⟩
  have hNne : N.Nonempty := by
    obtain ⟨d1, d2, d3⟩ := hp.distinct ti hti
    rcases hci with h | h | h
    · exact ⟨(m.tria ti).n2, (hN _).2 ⟨by rw [h]; exact Ne.symm d1, ti, hti, hCi, Or.inl h, Or.inr (Or.inl rfl)⟩⟩
    · exact ⟨(m.tria ti).n3, (hN _).2 ⟨by rw [h]; exact Ne.symm d2, ti, hti, hCi, Or.inr (Or.inl h), Or.inr (Or.inr rfl)⟩⟩
    · exact ⟨(m.tria ti).n1, (hN _).2 ⟨by rw [h]; exact Ne.symm d3, ti, hti, hCi, Or.inr (Or.inr h), Or.inl rfl⟩⟩
  obtain ⟨j, hj, hmax⟩ := N.exists_max_image (fun j => angleKey (nx m j - nx m i) (ny m j - ny m i)) hNne
  obtain ⟨hji, t, ht, hCt, hti', htj⟩ := (hN j).1 hj
  obtain ⟨k, hk, htk, hkij⟩ := corner_side w hp ht hti' htj (Ne.symm hji)
  -- directions from the leftmost node
  have hdir : ∀ o ∈ S, 0 ≤ nx m o - nx m i := by
    intro o ho; rcases hmin o ho with h | h <;> linarith
  have hpos : ∀ o ∈ S, (nx m o ≠ nx m i ∨ ny m o ≠ ny m i) → 0 < nx m o - nx m i + |ny m o - ny m i| := by
    intro o ho h
    rcases lt_or_eq_of_le (hdir o ho) with h1 | h1
    · have := abs_nonneg (ny m o - ny m i); linarith
    · rcases h with h | h
      · exact absurd (by linarith) h
      · have := abs_pos.2 (sub_ne_zero.2 h); linarith
  have hjS : j ∈ S := (hS j).2 ⟨t, ht, hCt, htj⟩
  have hno : ∀ o ∈ N, cr m i j o ≤ 0 := by
    intro o ho
    by_contra hcon
    push Not at hcon
    obtain ⟨_, t3, hto, hCo, _, hoo⟩ := (hN o).1 ho
    have hoS : o ∈ S := (hS o).2 ⟨t3, hto, hCo, hoo⟩
    have a1 : nx m j ≠ nx m i ∨ ny m j ≠ ny m i := by
      by_contra hc; push Not at hc
      unfold cr at hcon; rw [hc.1, hc.2] at hcon; simp at hcon
    have a2 : nx m o ≠ nx m i ∨ ny m o ≠ ny m i := by
      by_contra hc; push Not at hc
      unfold cr at hcon; rw [hc.1, hc.2] at hcon; simp at hcon
    have := angleKey_lt (hpos j hjS a1) (hpos o hoS a2) (hdir j hjS) (hdir o hoS) (by unfold cr at hcon; linarith)
    exact absurd (hmax o ho) (not_le.2 this)
  rcases edge_shape w hp hk with ⟨t', o, htr, hs, _⟩ | ⟨t1, t2, o1, o2, htr, hs1, hs2, _, _, _, _⟩
  · refine ⟨k, hk, t', htr, ?_⟩
    rw [htr] at htk
    simp only [List.mem_singleton] at htk
    exact htk ▸ hCt
  · exfalso
    have c1 : C t1 := hC t t1 hCt ⟨k, hk, htk, by rw [htr]; simp⟩
    have c2 : C t2 := hC t t2 hCt ⟨k, hk, htk, by rw [htr]; simp⟩
    have hop := cr_opposite hg hk htr hs1 hs2
    have key : ∀ {tt oo : ℕ}, C tt → Side m tt k oo → oo ∈ N := by
      intro tt oo hc hs
      refine (hN oo).2 ⟨?_, tt, hs.mem, hc, ?_, (hs.corner_iff oo).2 (Or.inr (Or.inr rfl))⟩
      · rcases hkij with h | h
        · have := hs.hao; rw [h] at this; exact Ne.symm this
        · have := hs.hbo; rw [h] at this; exact Ne.symm this
      · rw [hs.corner_iff]; rcases hkij with h | h <;> rw [h] <;> simp
    have n1 := hno o1 (key c1 hs1)
    have n2 := hno o2 (key c2 hs2)
    have hmul : 0 ≤ cr m i j o1 * cr m i j o2 := mul_nonneg_of_nonpos_of_nonpos n1 n2
    rcases hkij with h | h
    · rw [h] at hop; exact absurd hop (not_lt.2 hmul)
    · rw [h] at hop
      have e : ∀ o, cr m j i o = -cr m i j o := by intro o; unfold cr; ring
      rw [e, e] at hop
      linarith

end Meshless
