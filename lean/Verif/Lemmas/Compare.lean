import Verif.Spec.Compare
import Verif.Lemmas.TurnSolve
import Mathlib.LinearAlgebra.Dimension.Constructions

set_option autoImplicit false

namespace Meshless
open Spec Finset

/-! ### geometry of two meshes that differ in their laminates -/

section
variable {m m' : Mesh} (h : Stiffened m m')
include h

theorem Spec.Stiffened.snx : nx m' = nx m := by funext i; simp [nx, h.xyz]
theorem Spec.Stiffened.sny : ny m' = ny m := by funext i; simp [ny, h.xyz]
theorem Spec.Stiffened.scorners : corners m' = corners m := by funext i; simp [corners, h.corner]
theorem Spec.Stiffened.stpoly : tpoly m' = tpoly m := by funext i; simp [tpoly, h.corner]
theorem Spec.Stiffened.sdom : dom m' = dom m := by funext k; unfold dom; rw [h.etrias, h.scorners]
theorem Spec.Stiffened.ssarea : sarea m' = sarea m := by funext P; simp only [sarea, h.snx, h.sny]
theorem Spec.Stiffened.sgradX : gradX m' = gradX m := by funext P f; simp only [gradX, circDy, h.ssarea, h.sny]
theorem Spec.Stiffened.sgradY : gradY m' = gradY m := by funext P f; simp only [gradY, circDx, h.ssarea, h.snx]
theorem Spec.Stiffened.sdisp : disp m' = disp m := by funext v r i; simp only [disp, h.nids]
theorem Spec.Stiffened.seps : eps m' = eps m := by funext k v; simp only [eps, h.sgradX, h.sgradY, h.sdom, h.sdisp]
theorem Spec.Stiffened.striArea : triArea m' = triArea m := by funext e; simp only [triArea, h.ssarea, h.corner]
theorem Spec.Stiffened.sdsg : dsg m' = dsg m := by funext z P Q R; simp only [dsg, gap, h.sdisp, h.snx, h.sny, h.ssarea]
theorem Spec.Stiffened.scellStrain : cellStrain m' = cellStrain m := by
  funext e z r; simp only [cellStrain, cellGamma, rotSum, h.stpoly, h.ssarea, h.scorners, h.sdsg, h.striArea, h.sdisp]
theorem Spec.Stiffened.swholeGamma : wholeGamma m' = wholeGamma m := by
  funext e z; simp only [wholeGamma, h.stpoly, h.ssarea, h.sdsg, h.corner]
theorem Spec.Stiffened.scharLen : charLen m' = charLen m := by
  funext fa e; simp only [charLen, dist2, h.striArea, h.snx, h.sny, h.corner]

omit h in
theorem ofProp_le {R : Lam → Lam → Prop} {sel sel' : Lam → ℝ} (hs : ∀ p p', R p p' → sel p ≤ sel' p') {o o' : Option Lam} (h : Option.Rel R o o') :
    ofProp sel o ≤ ofProp sel' o' := by
  cases h with
  | none => exact le_rfl
  | some h => exact hs _ _ h

omit h in
theorem mean_le {f g : ℕ → ℝ} {l : List ℕ} (h : ∀ i ∈ l, f i ≤ g i) : Spec.mean f l ≤ Spec.mean g l := by
  unfold Spec.mean
  exact div_le_div_of_nonneg_right (List.sum_le_sum h) (Nat.cast_nonneg _)

/-- averages over an edge's domain grow with the laminates -/
theorem Spec.Stiffened.avg_le (w : WF m) (hp : Proper m) (pn : Bool) {k : Key} (hk : k ∈ m.ekeys) {sel : Lam → ℝ} (hs : ∀ p p', LamLe p p' → sel p ≤ sel p') :
    avg m pn k sel ≤ avg m' pn k sel := by
  unfold avg
  rw [h.sdom, h.etrias, h.striArea]
  split
  · refine div_le_div_of_nonneg_right (List.sum_le_sum fun A hA => ?_) (Nat.cast_nonneg _)
    refine mean_le fun i hi => ofProp_le hs (h.nprop i ?_)
    have hdom := dom_shape w hp hk
    rcases hdom with ⟨B, C, D, e, h1, h2, h3⟩ | ⟨B, C, D, E, e, h1, h2, h3, h4⟩
    · rw [e] at hA
      simp only [List.mem_cons, List.not_mem_nil, or_false] at hA
      rcases hA with rfl | rfl | rfl
      exacts [h1.2 i hi, h2.2 i hi, h3.2 i hi]
    · rw [e] at hA
      simp only [List.mem_cons, List.not_mem_nil, or_false] at hA
      rcases hA with rfl | rfl | rfl | rfl
      exacts [h1.2 i hi, h2.2 i hi, h3.2 i hi, h4.2 i hi]
  · refine div_le_div_of_nonneg_right (List.sum_le_sum fun t ht => ?_) (List.sum_nonneg fun y hy => ?_)
    · exact mul_le_mul_of_nonneg_left (ofProp_le hs (h.tprop t (trias_mem w hp hk ht))) (abs_nonneg _)
    · obtain ⟨t, _, rfl⟩ := List.mem_map.1 hy; exact abs_nonneg _

theorem Spec.Stiffened.energy_le (w : WF m) (hp : Proper m) (pn : Bool) (d : ℕ → ℝ) : energy m pn d d ≤ energy m' pn d d := by
  unfold energy
  rw [h.ekeys, h.sdom, h.ssarea, h.seps]
  refine List.sum_le_sum fun k hk => mul_le_mul_of_nonneg_left ?_ (abs_nonneg _)
  rw [avg_lamProd, avg_lamProd]
  exact h.avg_le w hp pn hk fun p p' hl => hl.abd _

theorem Spec.Stiffened.cavg_le (w : WF m) (pn : Bool) {e : ℕ} (he : e ∈ m.eids) {sel : Lam → ℝ} (hs : ∀ p p', LamLe p p' → sel p ≤ sel p') :
    cavg m pn e sel ≤ cavg m' pn e sel := by
  unfold cavg
  rw [h.scorners]
  split
  · exact mean_le fun i hi => ofProp_le hs (h.nprop i (w.corner_mem he hi))
  · exact ofProp_le hs (h.tprop e he)

theorem Spec.Stiffened.shearMod_le (w : WF m) {pn : Bool} (hh : HasProps m pn) (hl : ∀ l, InUse m pn l → StiffShear l) {al : ℝ} (ha : 0 ≤ al) (fa : Bool) {e : ℕ}
    (he : e ∈ m.eids) (r : Fin 2) : shearMod m pn al fa e r ≤ shearMod m' pn al fa e r := by
  have hh0 : 0 < cavg m pn e (fun l => l.h) := cavg_pos w hh he fun l h => (hl l h).1
  have h13 : 0 < cavg m pn e (fun l => l.k13) := cavg_pos w hh he fun l h => (hl l h).2.1
  have h23 : 0 < cavg m pn e (fun l => l.k23) := cavg_pos w hh he fun l h => (hl l h).2.2.1
  have h0 : 0 < cavg m pn e (fun l => l.E 0 0) := cavg_pos w hh he fun l h => (hl l h).2.2.2.1
  have h1 : 0 < cavg m pn e (fun l => l.E 1 1) := cavg_pos w hh he fun l h => (hl l h).2.2.2.2
  have gh := h.cavg_le w pn he (sel := fun l => l.h) fun p p' hl => hl.h
  have g13 := h.cavg_le w pn he (sel := fun l => l.k13) fun p p' hl => hl.k13
  have g23 := h.cavg_le w pn he (sel := fun l => l.k23) fun p p' hl => hl.k23
  have g0 := h.cavg_le w pn he (sel := fun l => l.E 0 0) fun p p' hl => hl.e00
  have g1 := h.cavg_le w pn he (sel := fun l => l.E 1 1) fun p p' hl => hl.e11
  unfold shearMod
  rw [h.scharLen]
  dsimp only
  set x := cavg m pn e fun l => l.h
  set x' := cavg m' pn e fun l => l.h
  have hc : 0 ≤ al * charLen m fa e ^ 2 := mul_nonneg ha (sq_nonneg _)
  have hx : x ^ 2 ≤ x' ^ 2 := by nlinarith
  have hq : x ^ 2 / (x ^ 2 + al * charLen m fa e ^ 2) ≤ x' ^ 2 / (x' ^ 2 + al * charLen m fa e ^ 2) := by
    rw [div_le_div_iff₀ (by positivity) (by nlinarith)]
    nlinarith [mul_le_mul_of_nonneg_right hx hc]
  have hx' : 0 ≤ x' ^ 2 / (x' ^ 2 + al * charLen m fa e ^ 2) := by positivity
  refine mul_le_mul hq ?_ ?_ hx'
  · split
    · exact mul_le_mul g23 g0 h0.le (h23.le.trans g23)
    · exact mul_le_mul g13 g1 h1.le (h13.le.trans g13)
  · split <;> positivity

end

/-! ### sums of modes -/

theorem form_sum_left {ι : Type} (s : Finset ι) (n : ℕ) (K : ℕ → ℕ → ℝ) (g : ι → ℝ) (x : ι → ℕ → ℝ) (u : ℕ → ℝ) :
    form n K (fun j => ∑ i ∈ s, g i * x i j) u = ∑ i ∈ s, g i * form n K (x i) u := by
  classical
  induction s using Finset.induction_on with
  | empty => simp [form]
  | insert a s ha ih =>
    simp only [Finset.sum_insert ha]
    rw [← ih]
    have := form_comb_left n K (g a) 1 (x a) (fun j => ∑ i ∈ s, g i * x i j) u
    simpa using this

end Meshless
