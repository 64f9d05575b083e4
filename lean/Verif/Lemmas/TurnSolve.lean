import Verif.Spec.TurnSolve
import Verif.Props.Turn
import Verif.Props.Buckling

/-! Static and buckling problems in weak form, and what turning the axes does to them. -/

set_option autoImplicit false

namespace Meshless
open Spec Finset

/-! ### weak form -/

theorem static_weak {K : Mat} {S : Set ℕ} {f d : ℕ → ℝ} :
    StaticSol K S f d ↔ Supported K.dim S d ∧ ∀ v, Supported K.dim S v → form K.dim K.get v d = ∑ i ∈ range K.dim, v i * f i := by
  refine ⟨fun h => ⟨h.1, fun v hv => form_work hv h.2⟩, fun h => ⟨h.1, fun i hi hiS => ?_⟩⟩
  have := h.2 (single i) fun j _ hjS => by
    unfold single; rw [if_neg]; rintro rfl; exact hiS hjS
  rw [form_row _ hi] at this
  rw [this]
  simp [single, Finset.sum_ite_eq', hi]

theorem mode_weak {K G : Mat} {S : Set ℕ} {c : ℝ} {x : ℕ → ℝ} : BucklingMode K G S c x ↔ (∃ i < K.dim, x i ≠ 0) ∧ Supported K.dim S x ∧
    ∀ v, Supported K.dim S v → form K.dim K.get v x + c * form K.dim G.get v x = 0 := by
  refine ⟨fun h => ⟨h.1, h.2.1, fun v hv => mode_form h hv⟩, fun h => ⟨h.1, h.2.1, fun i hi hiS => ?_⟩⟩
  have := h.2.2 (single i) fun j _ hjS => by
    unfold single; rw [if_neg]; rintro rfl; exact hiS hjS
  rw [← form_one_add, form_row (fun i j => K.get i j + c * G.get i j) hi] at this
  exact this

section
variable {q : Fin 2 → Fin 2 → ℝ} {π σ : ℕ → ℕ} {a b : ℝ} {m m' : Mesh}

/-! ### turned vectors -/

theorem Spec.TurnedGeom.mem (h : TurnedGeom q π σ a b m m') {i : ℕ} (hi : i ∈ m.nids) : π i ∈ m'.nids :=
  h.nids.mem_iff.2 (List.mem_map_of_mem hi)

theorem Spec.TurnedGeom.pre (h : TurnedGeom q π σ a b m m') {j : ℕ} (hj : j ∈ m'.nids) : ∃ i ∈ m.nids, j = π i := by
  obtain ⟨i, hi, rfl⟩ := List.mem_map.1 (h.nids.mem_iff.1 hj)
  exact ⟨i, hi, rfl⟩

theorem Spec.TurnedGeom.length (h : TurnedGeom q π σ a b m m') : m'.nids.length = m.nids.length := by rw [h.nids.length_eq, List.length_map]

theorem Spec.TurnedGeom.inj (h : TurnedGeom q π σ a b m m') (w' : WF m') {i j : ℕ} (hi : i ∈ m.nids) (hj : j ∈ m.nids) (he : π i = π j) : i = j :=
  List.inj_on_of_nodup_map (h.nids.nodup_iff.1 w'.nids_nodup) hi hj he

/-- two vectors with the same nodal values are equal -/
theorem disp_ext (hn : m.nids.Nodup) {z z' : ℕ → ℝ} (h : ∀ i ∈ m.nids, ∀ r < 5, disp m z r i = disp m z' r i) {j : ℕ} (hj : j < 5 * m.nids.length) : z j = z' j := by
  have hl : j / 5 < m.nids.length := by omega
  have := h _ (List.getElem_mem hl) (j % 5) (by omega)
  unfold disp at this
  rw [List.Nodup.idxOf_getElem hn] at this
  rwa [show 5 * (j / 5) + j % 5 = j by omega] at this

theorem disp_of_eq {z z' : ℕ → ℝ} (h : ∀ j < 5 * m.nids.length, z j = z' j) {i r : ℕ} (hi : i ∈ m.nids) (hr : r < 5) : disp m z r i = disp m z' r i := by
  have := List.idxOf_lt_length_iff.2 hi
  exact h _ (by omega)

/-- the transposed map -/
def flip (q : Fin 2 → Fin 2 → ℝ) : Fin 2 → Fin 2 → ℝ := fun i j => q j i

theorem Spec.Orthogonal.cols (hq : Orthogonal q) : q 0 0 ^ 2 + q 1 0 ^ 2 = 1 ∧ q 0 1 ^ 2 + q 1 1 ^ 2 = 1 ∧ q 0 0 * q 0 1 + q 1 0 * q 1 1 = 0 := by
  obtain ⟨δ, hδ, h11, h10⟩ := hq.det
  have h2 : δ * δ = 1 := by rcases hδ with rfl | rfl <;> norm_num
  have h0 := hq.row0
  rw [h11, h10]
  refine ⟨?_, ?_, ?_⟩
  · linear_combination h0 + q 0 1 ^ 2 * h2
  · linear_combination h0 + q 0 0 ^ 2 * h2
  · linear_combination -(q 0 0 * q 0 1) * h2

/-- every nodal vector of the turned mesh comes from one of the first mesh -/
theorem turned_from (hq : Orthogonal q) (z' : ℕ → ℝ) : ∃ z, TurnedDisp q π m m' z z' := by
  obtain ⟨c0, c1, c2⟩ := hq.cols
  have r0 := hq.row0
  have r1 := hq.row1
  have r2 := hq.cross
  have hd := turnVec_disp (m := m) (m' := m) (flip q) (pulled π m m' z') rfl
  refine ⟨turnVec (flip q) (pulled π m m' z'), fun i hi => ?_, fun i hi => ?_, fun i hi => ?_, fun i hi => ?_, fun i hi => ?_⟩
  · have e0 := hd.u i hi
    have e1 := hd.v i hi
    simp only [id, flip] at e0 e1
    rw [e0, e1, pulled_disp z' (by norm_num) hi, pulled_disp z' (by norm_num) hi]
    linear_combination -disp m' z' 0 (π i) * r0 - disp m' z' 1 (π i) * r2
  · have e0 := hd.u i hi
    have e1 := hd.v i hi
    simp only [id, flip] at e0 e1
    rw [e0, e1, pulled_disp z' (by norm_num) hi, pulled_disp z' (by norm_num) hi]
    linear_combination -disp m' z' 1 (π i) * r1 - disp m' z' 0 (π i) * r2
  · have e0 := hd.w i hi
    simp only [id] at e0
    rw [e0, pulled_disp z' (by norm_num) hi]
  · have e0 := hd.phix i hi
    have e1 := hd.phiy i hi
    simp only [id, flip] at e0 e1
    rw [e0, e1, pulled_disp z' (by norm_num) hi, pulled_disp z' (by norm_num) hi]
    linear_combination -disp m' z' 3 (π i) * r0 - disp m' z' 4 (π i) * r2
  · have e0 := hd.phix i hi
    have e1 := hd.phiy i hi
    simp only [id, flip] at e0 e1
    rw [e0, e1, pulled_disp z' (by norm_num) hi, pulled_disp z' (by norm_num) hi]
    linear_combination -disp m' z' 4 (π i) * r1 - disp m' z' 3 (π i) * r2

/-- every nodal vector of the first mesh has a turned counterpart -/
theorem Spec.TurnedGeom.turned_to (h : TurnedGeom q π σ a b m m') (w' : WF m') (z : ℕ → ℝ) : ∃ z', TurnedDisp q π m m' z z' := by
  classical
  let ρ : ℕ → ℕ := fun j => if hj : ∃ i ∈ m.nids, π i = j then hj.choose else 0
  have hρ : ∀ i ∈ m.nids, ρ (π i) = i := by
    intro i hi
    have hj : ∃ i' ∈ m.nids, π i' = π i := ⟨i, hi, rfl⟩
    simp only [ρ, dif_pos hj]
    exact h.inj w' hj.choose_spec.1 hi hj.choose_spec.2
  have hp : ∀ r < 5, ∀ i ∈ m.nids, disp m' (pulled ρ m' m (turnVec q z)) r (π i) = disp m (turnVec q z) r i := by
    intro r hr i hi
    rw [pulled_disp _ hr (h.mem hi), hρ i hi]
  have hd := turnVec_disp (m := m) (m' := m) q z rfl
  refine ⟨pulled ρ m' m (turnVec q z), fun i hi => ?_, fun i hi => ?_, fun i hi => ?_, fun i hi => ?_, fun i hi => ?_⟩ <;> rw [hp _ (by norm_num) i hi]
  · exact hd.u i hi
  · exact hd.v i hi
  · exact hd.w i hi
  · exact hd.phix i hi
  · exact hd.phiy i hi

theorem Spec.TurnedDisp.of_eq {z z' y y' : ℕ → ℝ} (h : TurnedDisp q π m m' z z') (hg : TurnedGeom q π σ a b m m') (hz : ∀ j < 5 * m.nids.length, y j = z j)
    (hz' : ∀ j < 5 * m'.nids.length, y' j = z' j) : TurnedDisp q π m m' y y' := by
  refine ⟨fun i hi => ?_, fun i hi => ?_, fun i hi => ?_, fun i hi => ?_, fun i hi => ?_⟩ <;> rw [disp_of_eq hz' (hg.mem hi) (by norm_num)]
  · rw [h.u i hi, disp_of_eq hz hi (by norm_num), disp_of_eq hz hi (by norm_num)]
  · rw [h.v i hi, disp_of_eq hz hi (by norm_num), disp_of_eq hz hi (by norm_num)]
  · rw [h.w i hi, disp_of_eq hz hi (by norm_num)]
  · rw [h.phix i hi, disp_of_eq hz hi (by norm_num), disp_of_eq hz hi (by norm_num)]
  · rw [h.phiy i hi, disp_of_eq hz hi (by norm_num), disp_of_eq hz hi (by norm_num)]

/-- the turned counterpart is unique -/
theorem Spec.TurnedDisp.unique {z z' z'' : ℕ → ℝ} (h : TurnedDisp q π m m' z z') (h' : TurnedDisp q π m m' z z'') (hg : TurnedGeom q π σ a b m m') (w' : WF m') :
    ∀ j < 5 * m'.nids.length, z' j = z'' j := by
  intro j hj
  refine disp_ext w'.nids_nodup (fun i' hi' r hr => ?_) hj
  obtain ⟨i, hi, rfl⟩ := hg.pre hi'
  have : r = 0 ∨ r = 1 ∨ r = 2 ∨ r = 3 ∨ r = 4 := by omega
  rcases this with rfl | rfl | rfl | rfl | rfl
  · rw [h.u i hi, h'.u i hi]
  · rw [h.v i hi, h'.v i hi]
  · rw [h.w i hi, h'.w i hi]
  · rw [h.phix i hi, h'.phix i hi]
  · rw [h.phiy i hi, h'.phiy i hi]

/-- nodal values of a sum over all degrees of freedom -/
theorem sum_dofs (hn : m.nids.Nodup) (v f : ℕ → ℝ) : ∑ j ∈ range (5 * m.nids.length), v j * f j =
    (m.nids.map fun i => disp m v 0 i * disp m f 0 i + disp m v 1 i * disp m f 1 i + disp m v 2 i * disp m f 2 i + disp m v 3 i * disp m f 3 i +
      disp m v 4 i * disp m f 4 i).sum := by
  rw [sum_by_node]
  exact (sum_nodes hn fun k => v (5 * k) * f (5 * k) + v (5 * k + 1) * f (5 * k + 1) + v (5 * k + 2) * f (5 * k + 2) + v (5 * k + 3) * f (5 * k + 3) +
    v (5 * k + 4) * f (5 * k + 4)).symm

/-- work does not depend on the axes -/
theorem Spec.TurnedGeom.work (h : TurnedGeom q π σ a b m m') (hq : Orthogonal q) (w : WF m) (w' : WF m') {v f v' f' : ℕ → ℝ} (hv : TurnedDisp q π m m' v v')
    (hf : TurnedDisp q π m m' f f') : ∑ j ∈ range (5 * m'.nids.length), v' j * f' j = ∑ j ∈ range (5 * m.nids.length), v j * f j := by
  obtain ⟨c0, c1, c2⟩ := hq.cols
  rw [sum_dofs w.nids_nodup, sum_dofs w'.nids_nodup, (h.nids.map _).sum_eq, List.map_map]
  congr 1
  refine List.map_congr_left fun i hi => ?_
  simp only [Function.comp, hv.u i hi, hv.v i hi, hv.w i hi, hv.phix i hi, hv.phiy i hi, hf.u i hi, hf.v i hi, hf.w i hi, hf.phix i hi, hf.phiy i hi]
  linear_combination (disp m v 0 i * disp m f 0 i + disp m v 3 i * disp m f 3 i) * c0 + (disp m v 1 i * disp m f 1 i + disp m v 4 i * disp m f 4 i) * c1 +
    (disp m v 0 i * disp m f 1 i + disp m v 1 i * disp m f 0 i + disp m v 3 i * disp m f 4 i + disp m v 4 i * disp m f 3 i) * c2

theorem Spec.TurnedGeom.nonzero (h : TurnedGeom q π σ a b m m') (hq : Orthogonal q) (w : WF m) (w' : WF m') {v v' : ℕ → ℝ} (hv : TurnedDisp q π m m' v v') :
    (∃ i < 5 * m'.nids.length, v' i ≠ 0) ↔ ∃ i < 5 * m.nids.length, v i ≠ 0 := by
  have key : ∀ (n : ℕ) (x : ℕ → ℝ), (∃ i < n, x i ≠ 0) ↔ 0 < ∑ j ∈ range n, x j * x j := by
    intro n x
    rw [Finset.sum_pos_iff_of_nonneg fun i _ => mul_self_nonneg (x i)]
    simp
  rw [key, key, h.work hq w w' hv hv]

/-! ### the complete stiffness matrix -/

theorem Spec.TurnedGeom.shearEnergy_diag (h : TurnedGeom q π σ a b m m') (hq : Orthogonal q) (h01 : q 0 1 = 0) (h10 : q 1 0 = 0) (hr : LamRel SameShear π σ m m') (w : WF m)
    (pn : Bool) (al : ℝ) (fa : Bool) {v u v' u' : ℕ → ℝ} (hv : TurnedDisp q π m m' v v') (hu : TurnedDisp q π m m' u u') :
    Spec.shearEnergy m' pn al fa (Spec.cellStrain m') v' u' = Spec.shearEnergy m pn al fa (Spec.cellStrain m) v u := by
  have r0 := hq.row0
  have r1 := hq.row1
  rw [h01] at r0
  rw [h10] at r1
  unfold Spec.shearEnergy
  rw [(h.eids.map _).sum_eq, List.map_map]
  congr 1
  refine List.map_congr_left fun e he => ?_
  obtain ⟨v0, v1⟩ := h.cellStrain hq w he hv
  obtain ⟨u0, u1⟩ := h.cellStrain hq w he hu
  rw [h01] at v0 u0
  rw [h10] at v1 u1
  simp only [Function.comp, h.triArea hq w he, h.shearMod hq hr w pn al fa he, v0, v1, u0, u1]
  linear_combination (Spec.triArea m e * Spec.cellStrain m e v 0 * Spec.shearMod m pn al fa e 0 * Spec.cellStrain m e u 0) * r0 +
    (Spec.triArea m e * Spec.cellStrain m e v 1 * Spec.shearMod m pn al fa e 1 * Spec.cellStrain m e u 1) * r1

theorem Spec.TurnedModel.shearEnergy (h : TurnedModel q π σ a b m m') (w : WF m) (pn : Bool) (al : ℝ) (fa : Bool) {v u v' u' : ℕ → ℝ} (hv : TurnedDisp q π m m' v v')
    (hu : TurnedDisp q π m m' u u') :
    Spec.shearEnergy m' pn al fa (Spec.cellStrain m') v' u' = Spec.shearEnergy m pn al fa (Spec.cellStrain m) v u := by
  rcases h.axes with hi | ⟨h01, h10⟩
  · exact h.toTurnedGeom.shearEnergy h.orth h.shear w hi pn al fa hv hu
  · exact h.toTurnedGeom.shearEnergy_diag h.orth h01 h10 h.shear w pn al fa hv hu

theorem SameStatic.turned {n n' : Mesh} (h : SameStatic m n) (h' : SameStatic m' n') (t : TurnedModel q π σ a b m m') : TurnedModel q π σ a b n n' := by
  constructor
  · constructor
    · refine ⟨?_, ?_, ?_, ?_, ?_⟩
      · rw [h.nids, h'.nids]; exact t.nids
      · rw [h.eids, h'.eids]; exact t.eids
      · rw [h.eids, h.scorners, h'.scorners]; exact t.tri
      · rw [h.nids, h.snx, h.sny, h'.snx]; exact t.hx
      · rw [h.nids, h.snx, h.sny, h'.sny]; exact t.hy
    · refine ⟨?_, ?_⟩
      · rw [h.eids, h.tria, h'.tria]; exact t.tprop
      · intro i hi; rw [h.prop, h'.prop]; exact t.nprop i (h.nids ▸ hi)
  · exact t.orth
  · refine ⟨?_, ?_⟩
    · rw [h.eids, h.tria, h'.tria]; exact t.shear.tprop
    · intro i hi; rw [h.prop, h'.prop]; exact t.shear.nprop i (h.nids ▸ hi)
  · refine t.axes.imp (fun hl => ⟨?_, ?_⟩) id
    · intro i hi; rw [h.prop]; exact hl.1 i (h.nids ▸ hi)
    · rw [h.eids, h.tria]; exact hl.2
  · intro i hi; rw [h'.cp, h'.xyz]; exact t.basic i (h'.nids ▸ hi)
  · intro i hi j hj; rw [h'.xyz, h'.xyz]; exact t.flat i (h'.nids ▸ hi) j (h'.nids ▸ hj)

theorem SameStatic.turnedDisp {n n' : Mesh} (h : SameStatic m n) (h' : SameStatic m' n') {z z' : ℕ → ℝ} (t : TurnedDisp q π m m' z z') : TurnedDisp q π n n' z z' := by
  refine ⟨?_, ?_, ?_, ?_, ?_⟩ <;> rw [h.nids, h.sdisp, h'.sdisp]
  exacts [t.u, t.v, t.w, t.phix, t.phiy]

end

end Meshless
