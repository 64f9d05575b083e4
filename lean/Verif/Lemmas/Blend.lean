import Verif.Spec.Blend
import Verif.Lemmas.Compare

set_option autoImplicit false

namespace Meshless
open Spec Finset

/-! ### the same mesh with other laminates -/

section
variable {m m' : Mesh} (h : SameMesh m m')
include h

theorem Spec.SameMesh.snx : nx m' = nx m := by funext i; simp [nx, h.xyz]
theorem Spec.SameMesh.sny : ny m' = ny m := by funext i; simp [ny, h.xyz]
theorem Spec.SameMesh.scorners : corners m' = corners m := by funext i; simp [corners, h.corner]
theorem Spec.SameMesh.stpoly : tpoly m' = tpoly m := by funext i; simp [tpoly, h.corner]
theorem Spec.SameMesh.sdom : dom m' = dom m := by funext k; unfold dom; rw [h.etrias, h.scorners]
theorem Spec.SameMesh.ssarea : sarea m' = sarea m := by funext P; simp only [sarea, h.snx, h.sny]
theorem Spec.SameMesh.sgradX : gradX m' = gradX m := by funext P f; simp only [gradX, circDy, h.ssarea, h.sny]
theorem Spec.SameMesh.sgradY : gradY m' = gradY m := by funext P f; simp only [gradY, circDx, h.ssarea, h.snx]
theorem Spec.SameMesh.sdisp : disp m' = disp m := by funext v r i; simp only [disp, h.nids]
theorem Spec.SameMesh.seps : eps m' = eps m := by funext k v; simp only [eps, h.sgradX, h.sgradY, h.sdom, h.sdisp]
theorem Spec.SameMesh.striArea : triArea m' = triArea m := by funext e; simp only [triArea, h.ssarea, h.corner]
theorem Spec.SameMesh.sdsg : dsg m' = dsg m := by funext z P Q R; simp only [dsg, gap, h.sdisp, h.snx, h.sny, h.ssarea]
theorem Spec.SameMesh.scellStrain : cellStrain m' = cellStrain m := by
  funext e z r; simp only [cellStrain, cellGamma, rotSum, h.stpoly, h.ssarea, h.scorners, h.sdsg, h.striArea, h.sdisp]
theorem Spec.SameMesh.swholeGamma : wholeGamma m' = wholeGamma m := by
  funext e z; simp only [wholeGamma, h.stpoly, h.ssarea, h.sdsg, h.corner]
theorem Spec.SameMesh.scharLen : charLen m' = charLen m := by
  funext fa e; simp only [charLen, dist2, h.striArea, h.snx, h.sny, h.corner]

end

/-! ### averages -/

theorem ofProp_blend {t : ℝ} {sel : Lam → ℝ} (hs : ∀ p q r, Blend t p q r → sel r = (1 - t) * sel p + t * sel q) {o0 o1 o : Option Lam} (h : PropBlend t o0 o1 o) :
    ofProp sel o = (1 - t) * ofProp sel o0 + t * ofProp sel o1 := by
  rcases h with ⟨rfl, rfl, rfl⟩ | ⟨p, q, r, rfl, rfl, rfl, h⟩
  · simp [ofProp]
  · exact hs p q r h

theorem mapSum_blend {α : Type} {t : ℝ} {f g k : α → ℝ} {l : List α} (h : ∀ a ∈ l, k a = (1 - t) * f a + t * g a) :
    (l.map k).sum = (1 - t) * (l.map f).sum + t * (l.map g).sum := by
  induction l with
  | nil => simp
  | cons a l ih =>
    simp only [List.map_cons, List.sum_cons]
    rw [h a (by simp), ih fun b hb => h b (by simp [hb])]
    ring

theorem mean_blend {t : ℝ} {f g k : ℕ → ℝ} {l : List ℕ} (h : ∀ a ∈ l, k a = (1 - t) * f a + t * g a) :
    Spec.mean k l = (1 - t) * Spec.mean f l + t * Spec.mean g l := by
  unfold Spec.mean
  rw [mapSum_blend h]; ring

section
variable {t : ℝ} {pn : Bool} {m0 m1 m : Mesh} (h : Between t pn m0 m1 m) (w : WF m0) (hp : Proper m0)
include h w hp

theorem Spec.Between.savg {k : Key} (hk : k ∈ m0.ekeys) {sel : Lam → ℝ} (hs : ∀ p q r, Blend t p q r → sel r = (1 - t) * sel p + t * sel q) :
    avg m pn k sel = (1 - t) * avg m0 pn k sel + t * avg m1 pn k sel := by
  unfold avg
  rw [h.mid.sdom, h.mid.etrias, h.mid.striArea, h.one.sdom, h.one.etrias, h.one.striArea]
  cases pn with
  | true =>
    simp only [if_true]
    rw [mapSum_blend (t := t) fun A hA => mean_blend fun i hi => ofProp_blend hs (h.nprop rfl i ((dom_inMesh w hp hk hA).2 i hi))]
    ring
  | false =>
    simp only [Bool.false_eq_true, if_false]
    rw [mapSum_blend (t := t) (k := fun e => triArea m0 e * ofProp sel (m.tria e).prop) fun e he => by
      rw [ofProp_blend hs (h.tprop rfl e (trias_mem w hp hk he)), mul_add, mul_left_comm, mul_left_comm (triArea m0 e) t]]
    ring

theorem Spec.Between.scavg {e : ℕ} (he : e ∈ m0.eids) {sel : Lam → ℝ} (hs : ∀ p q r, Blend t p q r → sel r = (1 - t) * sel p + t * sel q) :
    cavg m pn e sel = (1 - t) * cavg m0 pn e sel + t * cavg m1 pn e sel := by
  unfold cavg
  rw [h.mid.scorners, h.one.scorners]
  cases pn with
  | true =>
    simp only [if_true]
    exact mean_blend fun i hi => ofProp_blend hs (h.nprop rfl i (w.corner_mem he hi))
  | false => simpa using ofProp_blend hs (h.tprop rfl e he)

theorem Spec.Between.scavg_same {e : ℕ} (he : e ∈ m0.eids) {sel : Lam → ℝ} (hs : ∀ p q r, Blend t p q r → sel r = sel p ∧ sel q = sel p) :
    cavg m pn e sel = cavg m0 pn e sel ∧ cavg m1 pn e sel = cavg m0 pn e sel := by
  have ho : ∀ {o0 o1 o : Option Lam}, PropBlend t o0 o1 o → ofProp sel o = ofProp sel o0 ∧ ofProp sel o1 = ofProp sel o0 := by
    intro o0 o1 o h
    rcases h with ⟨rfl, rfl, rfl⟩ | ⟨p, q, r, rfl, rfl, rfl, h⟩
    · simp
    · exact hs p q r h
  unfold cavg
  rw [h.mid.scorners, h.one.scorners]
  cases pn with
  | true =>
    simp only [if_true]
    unfold Spec.mean
    constructor
    · congr 2; exact List.map_congr_left fun i hi => (ho (h.nprop rfl i (w.corner_mem he hi))).1
    · congr 2; exact List.map_congr_left fun i hi => (ho (h.nprop rfl i (w.corner_mem he hi))).2
  | false => simpa using ho (h.tprop rfl e he)

omit h w hp in
theorem abd_blend {p q r : Lam} (h : Blend t p q r) (i j : Fin 6) : abd r i j = (1 - t) * abd p i j + t * abd q i j := by
  unfold abd sym3
  dsimp only
  split_ifs <;> simp only [h.A, h.B, h.D]

/-- membrane and bending energies are interpolated -/
theorem Spec.Between.senergy (v u : ℕ → ℝ) : energy m pn v u = (1 - t) * energy m0 pn v u + t * energy m1 pn v u := by
  unfold energy
  rw [h.mid.ekeys, h.mid.sdom, h.mid.ssarea, h.mid.seps, h.one.ekeys, h.one.sdom, h.one.ssarea, h.one.seps]
  refine mapSum_blend fun k hk => ?_
  simp only [h.savg w hp hk fun p q r hb => abd_blend hb _ _]
  rw [mul_left_comm (1 - t), mul_left_comm t, ← mul_add]
  congr 1
  rw [Finset.mul_sum, Finset.mul_sum, ← Finset.sum_add_distrib]
  refine Finset.sum_congr rfl fun i _ => ?_
  rw [Finset.mul_sum, Finset.mul_sum, ← Finset.sum_add_distrib]
  exact Finset.sum_congr rfl fun j _ => by ring

theorem Spec.Between.sshearMod (al : ℝ) (fa : Bool) {e : ℕ} (he : e ∈ m0.eids) (r : Fin 2) :
    shearMod m pn al fa e r = (1 - t) * shearMod m0 pn al fa e r + t * shearMod m1 pn al fa e r := by
  obtain ⟨a1, a2⟩ := h.scavg_same w hp he (sel := fun l => l.h) fun p q r hb => hb.h
  obtain ⟨b1, b2⟩ := h.scavg_same w hp he (sel := fun l => l.k13) fun p q r hb => hb.k13
  obtain ⟨c1, c2⟩ := h.scavg_same w hp he (sel := fun l => l.k23) fun p q r hb => hb.k23
  have e0 := h.scavg w hp he (sel := fun l => l.E 0 0) fun p q r hb => hb.E 0 0
  have e1 := h.scavg w hp he (sel := fun l => l.E 1 1) fun p q r hb => hb.E 1 1
  unfold shearMod
  rw [h.mid.scharLen, h.one.scharLen]
  dsimp only
  rw [a1, a2, b1, b2, c1, c2, e0, e1]
  split <;> ring

/-- transverse shear energies are interpolated -/
theorem Spec.Between.sshear (al : ℝ) (fa : Bool) (gam : Mesh → ℕ → (ℕ → ℝ) → Fin 2 → ℝ) (hg : gam m = gam m0 ∧ gam m1 = gam m0) (v u : ℕ → ℝ) :
    shearEnergy m pn al fa (gam m) v u = (1 - t) * shearEnergy m0 pn al fa (gam m0) v u + t * shearEnergy m1 pn al fa (gam m1) v u := by
  unfold shearEnergy
  rw [h.mid.eids, h.mid.striArea, h.one.eids, h.one.striArea, hg.1, hg.2]
  refine mapSum_blend fun e he => ?_
  rw [h.sshearMod w hp al fa he, h.sshearMod w hp al fa he]
  ring

end

end Meshless
