import Verif.Props.Modes

/-! C77: exactly which displacements cost no energy without smoothing. -/

set_option autoImplicit false

namespace Meshless
open Spec Finset

/-- C77, what holds on every plate: without smoothing a displacement costs no energy exactly when the in-plane displacements are a rigid
motion, the rotations have the form `(p - r y, q + r x)`, and in every triangle the deflection has the slope that makes up for the rotation
*at the shear gap origin of that triangle*. So the only possible spurious mode is the twist `r`. -/
theorem C77_exact_partial {m : Mesh} (hr : Reachable m) {pn : Bool} (hg : GoodPlate m pn) {al : ℝ} (ha : 0 ≤ al) {fa : Bool} {K : Mat}
    (hK : Stiffness m pn "cell-based-no-smoothing" al fa K) (d : ℕ → ℝ) :
    form K.dim K.get d d = 0 ↔ (∃ a b c, RigidField m (disp m d 0) (disp m d 1) a b c) ∧
      ∃ p q r, RigidField m (disp m d 3) (disp m d 4) p q r ∧ ∀ e ∈ m.eids, ∀ i, IsCorner m e i →
        disp m d 2 i - disp m d 2 (gapOrigin m e) = -((p - r * ny m (gapOrigin m e)) * (nx m i - nx m (gapOrigin m e))
          + (q + r * nx m (gapOrigin m e)) * (ny m i - ny m (gapOrigin m e))) := by
  have hθ : rotFactor "cell-based-no-smoothing" = 1 := if_neg (by decide)
  obtain ⟨_, K0, hK0, _, hform⟩ := stiffness_energy hr hg hK
  obtain ⟨hs, _, hh, _⟩ := calcK0_ok hr.wf hK0
  have hf2 := hs.flatMesh hg.planar
  have og : ∀ e, IsCorner m e (gapOrigin m e) := by
    intro e
    unfold gapOrigin IsCorner
    split
    · exact Or.inl rfl
    · exact Or.inr (Or.inl rfl)
  constructor
  · intro h
    obtain ⟨h1, p, q, r, h3, h4⟩ := (modes_total hr hg ha hK).2 h
    refine ⟨h1, p, q, r, h3, fun e he i hi => ?_⟩
    obtain ⟨c, hc⟩ := h4 e he
    have ho : shearOrigin (calcK0 m pn).1 "cell-based-no-smoothing" e = [gapOrigin m e] := by
      unfold shearOrigin; rw [if_neg (by decide), gapOrigin_eq hf2 (hs.eids.symm ▸ he), hs.gapOrigin]
    rw [ho, hθ, one_mul, one_mul, mean_single, mean_single] at hc
    rw [hc i hi, hc _ (og e)]
    ring
  · rintro ⟨h1, p, q, r, h3, h4⟩
    rw [hform, (C73_modes hr hg.proper hg.planar hg.piece hK0 hg.abd d).2 ⟨h1, p, q, r, h3⟩, zero_add, if_neg (by decide)]
    refine shearEnergy_null fun e he => ?_
    have he' : e ∈ m.eids := hs.eids ▸ he
    have hc : ∀ i ∈ corners (calcK0 m pn).1 e, i ∈ m.nids ∧ IsCorner m e i := by
      intro i hi; rw [hs.scorners] at hi; exact ⟨hr.wf.corner_mem he' hi, isCorner_mem.2 hi⟩
    obtain ⟨g0, g1⟩ := wholeGamma_affine hf2 he (z := d)
      (c := disp m d 2 (gapOrigin m e) + (p - r * ny m (gapOrigin m e)) * nx m (gapOrigin m e) + (q + r * nx m (gapOrigin m e)) * ny m (gapOrigin m e))
      (p := -(p - r * ny m (gapOrigin m e))) (q := -(q + r * nx m (gapOrigin m e))) (a := p) (b := q) (r := r)
      (fun i hi => by rw [hs.sdisp, hs.snx, hs.sny]; linarith [h4 e he' i (hc i hi).2])
      (fun i hi => by rw [hs.sdisp, hs.sny]; exact (h3 i (hc i hi).1).1)
      (fun i hi => by rw [hs.sdisp, hs.snx]; exact (h3 i (hc i hi).1).2)
    rw [g0, g1, gapOrigin_eq hf2 he, hs.snx, hs.sny, hs.gapOrigin]
    constructor <;> ring

/-- C77: whenever all triangles measure their shear gaps from the same node, as in a fan, there is a spurious mode: twisting the normals about
that node costs no energy although the rotations are not uniform. -/
theorem C77_fan_false {m : Mesh} (hr : Reachable m) {pn : Bool} (hg : GoodPlate m pn) {al : ℝ} (ha : 0 ≤ al) {fa : Bool} {K : Mat}
    (hK : Stiffness m pn "cell-based-no-smoothing" al fa K) {o : ℕ} (ho : ∀ e ∈ m.eids, gapOrigin m e = o) (he : m.eids ≠ []) :
    ∃ d : ℕ → ℝ, form K.dim K.get d d = 0 ∧ ¬∃ p q, ∀ i ∈ m.nids, disp m d 3 i = p ∧ disp m d 4 i = q := by
  let node := fun x => m.nids.getD (x / 5) 0
  let d : ℕ → ℝ := fun x => if x % 5 = 3 then ny m o - ny m (node x) else if x % 5 = 4 then nx m (node x) - nx m o else 0
  have hn : ∀ i ∈ m.nids, ∀ r < 5, node (5 * m.nids.idxOf i + r) = i := by
    intro i hi r hr
    have hl := List.idxOf_lt_length_iff.2 hi
    simp only [node]
    rw [show (5 * m.nids.idxOf i + r) / 5 = m.nids.idxOf i by omega, List.getD_eq_getElem _ _ hl, List.getElem_idxOf]
  have h0 : ∀ i, disp m d 0 i = 0 ∧ disp m d 1 i = 0 ∧ disp m d 2 i = 0 := by
    intro i
    simp only [disp, d]
    refine ⟨?_, ?_, ?_⟩ <;> rw [if_neg (by omega), if_neg (by omega)]
  have h3 : ∀ i ∈ m.nids, disp m d 3 i = ny m o - ny m i ∧ disp m d 4 i = nx m i - nx m o := by
    intro i hi
    have a := hn i hi 3 (by norm_num)
    have b := hn i hi 4 (by norm_num)
    simp only [disp, d]
    rw [if_pos (by omega), if_neg (by omega), if_pos (by omega), a, b]
    exact ⟨rfl, rfl⟩
  refine ⟨d, (C77_exact_partial hr hg ha hK d).2 ⟨⟨0, 0, 0, fun i _ => by rw [(h0 i).1, (h0 i).2.1]; simp⟩, ny m o, -nx m o, 1,
    fun i hi => by rw [(h3 i hi).1, (h3 i hi).2]; constructor <;> ring, fun e he i _ => ?_⟩, ?_⟩
  · rw [ho e he, (h0 i).2.2, (h0 o).2.2]; ring
  · rintro ⟨p, q, h⟩
    obtain ⟨e, he⟩ := List.exists_mem_of_ne_nil _ he
    have c : ∀ i, IsCorner m e i → ny m i = ny m o - p ∧ nx m i = nx m o + q := by
      intro i hi
      have hi' := hr.wf.corner_mem he (isCorner_mem.1 hi)
      obtain ⟨a, b⟩ := h i hi'
      rw [(h3 i hi').1] at a
      rw [(h3 i hi').2] at b
      constructor <;> linarith
    apply hg.planar.nondeg e he
    rw [sarea3]
    simp only [mean_single]
    rw [(c _ (Or.inl rfl)).1, (c _ (Or.inl rfl)).2, (c _ (Or.inr (Or.inl rfl))).1, (c _ (Or.inr (Or.inl rfl))).2, (c _ (Or.inr (Or.inr rfl))).1,
      (c _ (Or.inr (Or.inr rfl))).2]
    ring

/-- concrete case: the square, both triangles of which measure from node 1 -/
example : ∃ K, Stiffness exSq true "cell-based-no-smoothing" 0.1 true K ∧ ∃ d : ℕ → ℝ, form K.dim K.get d d = 0 ∧
    ¬∃ p q, ∀ i ∈ exSq.nids, disp exSq d 3 i = p ∧ disp exSq d 4 i = q := by
  obtain ⟨K, hK⟩ := exSq_stiffness (Or.inr rfl) true 0.1 true
  refine ⟨K, hK, C77_fan_false (exMesh_reachable ..) (exSq_good true) (by norm_num) hK (o := 1) (fun e he => ?_) (by rw [exMesh_eids]; simp)⟩
  rw [exMesh_eids] at he
  simp only [List.mem_cons, List.not_mem_nil, or_false] at he
  rcases he with rfl | rfl
  · unfold gapOrigin tpoly
    rw [exMesh_tria1, sarea3]
    simp only [mean_single, nx, ny, exMesh_node1, exMesh_node2, exMesh_node3]
    norm_num
  · unfold gapOrigin tpoly
    rw [exMesh_tria2, sarea3]
    simp only [mean_single, nx, ny, exMesh_node1, exMesh_node3, exMesh_node4]
    norm_num

end Meshless
