import Verif.Lemmas.FloatKG
import Verif.Lemmas.FloatK0s
import Verif.Lemmas.FloatSolve
import Verif.Spec.FloatRun
import Verif.Props.Order
import Verif.Props.K0Inv

/-! Scripts and the steps of an analysis in floating-point arithmetic, put together. -/

set_option autoImplicit false

namespace Meshless
open Spec Filter Topology Finset

variable {ι κ : Type} {π : ι → Rounding}

theorem Acc.comp {a : ι → ℝ} {l : ℝ} (h : Acc π a l) (g : κ → ι) : Acc (fun k => π (g k)) (fun k => a (g k)) l := by
  rw [acc_iff] at h ⊢
  obtain ⟨C, u0, h0, h1⟩ := h
  exact ⟨C, u0, h0, fun k hk => h1 (g k) hk⟩

theorem AccMat.comp {F : ι → Mat} {K : Mat} (h : AccMat π F K) (g : κ → ι) : AccMat (fun k => π (g k)) (fun k => F (g k)) K := by
  refine ⟨?_, fun r c => (h.get r c).comp g⟩
  have := h.dim
  rw [smallU_iff] at this ⊢
  obtain ⟨u0, h0, h1⟩ := this
  exact ⟨u0, h0, fun k hk => h1 (g k) hk⟩

/-- a number off by at most a multiple of the roundoff is accurate -/
theorem acc_of_le {a : ι → ℝ} {l c : ℝ} (h : ∀ i, |a i - l| ≤ c * (π i).u) : Acc π a l := acc_iff.2 ⟨c, 1, one_pos, fun i _ => h i⟩

theorem Ran.comp {m : Mesh} {pn : Bool} {M : ι → Mesh} (h : Ran π m pn M) (g : κ → ι) : Ran (fun k => π (g k)) m pn (fun k => M (g k)) :=
  ⟨h.w, h.hp, h.hg, h.hq, h.hh, fun k => h.like (g k), fun k => h.prep (g k)⟩

theorem likeMesh_step (R : Rounding) {m M : Mesh} (h : LikeMesh m M) (op : Op) : LikeMesh (step m op) (R.step M op) := by
  cases op with
  | setNodeProp i p =>
    simp only [step, Rounding.step, h.nids]; split
    · exact ⟨h.nids, by simp only [Mesh.updNode, h.node], h.eids, h.tria, h.ekeys, h.edge⟩
    · exact h
  | setTriaProp e p =>
    simp only [step, Rounding.step, h.eids]; split
    · exact ⟨h.nids, h.node, h.eids, by simp only [Mesh.updTria, h.tria], h.ekeys, h.edge⟩
    · exact h
  | moveNode i x =>
    simp only [step, Rounding.step, h.nids]; split
    · exact ⟨h.nids, by simp only [Mesh.updNode, h.node], h.eids, h.tria, h.ekeys, h.edge⟩
    · exact h
  | calcK0 pn =>
    have := (Rounding.calcK0_like (R := Rounding.exact) (R' := R) h pn).2.1
    rw [Rounding.exact_calcK0] at this
    exact this
  | addK0s => exact h
  | calcKG => exact h

/-- a script leaves the same mesh with and without rounding, up to the numbers stored on edges -/
theorem likeMesh_run (R : Rounding) : ∀ (ops : List Op) {m M : Mesh}, LikeMesh m M → LikeMesh (run m ops) (R.run M ops)
  | [], _, _, h => h
  | op :: ops, _, _, h => likeMesh_run R ops (likeMesh_step R h op)

theorem sameResult_of {a b : Except Err Mat} (h : Rounding.SameOutcome a b) (hd : ∀ K F, a = .ok K → b = .ok F → F.dim = K.dim) : SameResult a b := by
  rcases a with e | K <;> rcases b with e' | F <;> simp only [Rounding.SameOutcome, Except.map] at h
  · injection h
  · cases h
  · cases h
  · exact hd K F rfl rfl

theorem SameStatic.thickFor {m m' : Mesh} (h : SameStatic m m') {method : String} {pn : Bool} (ht : ThickFor method m pn) : ThickFor method m' pn := by
  unfold ThickFor at *
  split at ht
  · rename_i q
    rw [if_pos q]
    intro k hk
    rw [h.savg]
    exact ht k (h.ekeys ▸ hk)
  · rename_i q
    rw [if_neg q]
    intro e he
    have : cavg m' = cavg m := by
      funext pn e sel
      simp only [cavg, h.prop, h.tria, h.scorners]
    rw [this]
    exact ht e (h.eids ▸ he)

/-- the assembled stiffness matrix, with and without rounding -/
theorem assembled_acc (π : ι → Rounding) {m : Mesh} (hr : Reachable m) (hp : Proper m) (hg : Planar m) {pn : Bool} {method : String}
    (ht : ThickFor method m pn) {al : ℝ} (hal : 0 ≤ al) {fa : Bool} {K : Mat} (hK : Assembled m pn method al fa K) {M : ι → Mesh}
    (hM : ∀ i, LikeMesh m (M i)) :
    Ran π (calcK0 m pn).1 pn (fun i => ((π i).calcK0 (M i) pn).1) ∧
    ∃ F : ι → Mat, (∀ i, FlAssembled (π i) (M i) pn method al fa (F i)) ∧ (∀ i, (F i).dim = K.dim) ∧ AccMat π F K := by
  obtain ⟨K0, h0, hadd⟩ := hK
  obtain ⟨hs, _, hh, hne⟩ := calcK0_ok hr.wf h0
  obtain ⟨hran, K0', F0, e1, e2, e3, e4⟩ := calcK0_acc π hr.wf hp hg hh hne hM
  rw [h0] at e1
  cases e1
  have hl := fun i => Rounding.addK0s_like (R := Rounding.exact) (R' := π i) (hran.like i) pn method al fa (e3 i)
  simp only [Rounding.exact_addK0s, hadd] at hl
  have hacc := addK0s_acc hran hal fa method (hs.thickFor ht) e4 (by rw [hadd])
  rw [hadd] at hacc
  refine ⟨hran, fun i => ((π i).addK0s (F0 i) ((π i).calcK0 (M i) pn).1 pn method al fa).1, fun i => ⟨F0 i, e2 i, ?_⟩, fun i => (hl i).2, hacc⟩
  exact Prod.ext rfl (hl i).1

end Meshless
