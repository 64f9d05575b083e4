import Verif.Spec.Thin
import Verif.Props.Units

/-! Plates of the same layup with another thickness. -/

set_option autoImplicit false

namespace Meshless
open Spec Finset

section
variable {t : ℝ} {m m' : Mesh}

theorem Spec.ThinPlate.unit (h : ThinPlate t m m') : UnitPlate 1 1 (relaid m m') m' where
  tprop e _ := by
    change Option.Rel _ (m'.tria e).prop (m'.tria e).prop
    cases (m'.tria e).prop with
    | none => exact .none
    | some p => exact .some ⟨by simp, by simp, by simp, by simp, by simp, rfl, rfl⟩
  nprop i _ := by
    change Option.Rel _ (m'.node i).prop (m'.node i).prop
    cases (m'.node i).prop with
    | none => exact .none
    | some p => exact .some ⟨by simp, by simp, by simp, by simp, by simp, rfl, rfl⟩
  nids := h.nids
  eids := h.eids
  tri := h.tri
  hx i hi := by rw [one_mul]; exact h.hx i hi
  hy i hi := by rw [one_mul]; exact h.hy i hi
  basic := h.basic
  flat := h.flat

theorem inLength_one (z : ℕ → ℝ) : inLength 1 z = z := by funext j; unfold inLength scaled; split_ifs <;> rw [one_mul]

theorem thinned_disp (z : ℕ → ℝ) (i : ℕ) {r : ℕ} (hr : r < 5) : disp m (thinned t z) r i = (if r < 2 then t else 1) * disp m z r i := by
  unfold disp thinned
  rw [show (5 * m.nids.idxOf i + r) % 5 = r by omega]
  split_ifs <;> simp

theorem thinned_eps (k : Key) (v : ℕ → ℝ) (p : Fin 6) : Spec.eps (relaid m m') k (thinned t v) p = (if p.val < 3 then t else 1) * Spec.eps m k v p := by
  have hd : ∀ r < 5, disp (relaid m m') (thinned t v) r = fun i => (if r < 2 then t else 1) * disp m v r i := by
    intro r hr; funext i; exact thinned_disp (m := relaid m m') v i hr
  unfold Spec.eps
  rw [hd 0 (by norm_num), hd 1 (by norm_num), hd 3 (by norm_num), hd 4 (by norm_num), relaid_gradX, relaid_gradX, relaid_gradX, relaid_gradX,
    relaid_gradY, relaid_gradY, relaid_gradY, relaid_gradY]
  fin_cases p <;> simp [mul_add]

theorem Spec.ThinLam.abd {p p' : Lam} (h : ThinLam t p p') (i j : Fin 6) :
    Spec.abd p' i j = (if i.val < 3 ∧ j.val < 3 then t else if 3 ≤ i.val ∧ 3 ≤ j.val then t ^ 3 else t ^ 2) * Spec.abd p i j := by
  have hA : sym3 p'.A = fun i j => t * sym3 p.A i j := by funext i j; unfold sym3; split_ifs <;> exact h.A ..
  have hB : sym3 p'.B = fun i j => t ^ 2 * sym3 p.B i j := by funext i j; unfold sym3; split_ifs <;> exact h.B ..
  have hD : sym3 p'.D = fun i j => t ^ 3 * sym3 p.D i j := by funext i j; unfold sym3; split_ifs <;> exact h.D ..
  unfold Spec.abd
  dsimp only
  rw [hA, hB, hD]
  split_ifs <;> rfl

/-- stretching less, the thin plate stores `t^3` times the membrane and bending energy -/
theorem Spec.ThinPlate.energy (h : ThinPlate t m m') (w : WF m) (w' : WF m') (hp : Proper m) (hg : Planar m) (pn : Bool) (v u : ℕ → ℝ) :
    Spec.energy m' pn (thinned t v) (thinned t u) = t ^ 3 * Spec.energy m pn v u := by
  have h1 := h.unit.energy (relaid_wf w) w' (relaid_proper hp) (relaid_planar hg) one_ne_zero pn (thinned t v) (thinned t u)
  rw [inLength_one, inLength_one, one_mul, one_mul] at h1
  rw [h1]
  unfold Spec.energy
  rw [← List.sum_map_mul_left]
  congr 1
  refine List.map_congr_left fun k hk => ?_
  rw [mul_left_comm]
  refine congrArg (fun x => |Spec.sarea m (Spec.dom m k)| * x) ?_
  rw [Finset.mul_sum]
  refine Finset.sum_congr rfl fun p _ => ?_
  rw [Finset.mul_sum]
  refine Finset.sum_congr rfl fun q _ => ?_
  rw [thinned_eps, thinned_eps, relaid_avg h.toLamRel w hp hk pn (fun p' p'' hh => hh.abd p q)]
  split_ifs <;> first | omega | ring

/-- shear strains do not notice the in-plane displacements -/
theorem thinned_gap (z : ℕ → ℝ) (P Q : List ℕ) : Spec.gap m (thinned t z) P Q = Spec.gap m z P Q := by
  have hd : ∀ r < 5, 2 ≤ r → disp m (thinned t z) r = disp m z r := by
    intro r hr h2; funext i; rw [thinned_disp z i hr, if_neg (by omega), one_mul]
  unfold Spec.gap
  rw [hd 2 (by norm_num) (by norm_num), hd 3 (by norm_num) (by norm_num), hd 4 (by norm_num) (by norm_num)]

theorem thinned_cell (e : ℕ) (z : ℕ → ℝ) : cellStrain m e (thinned t z) = cellStrain m e z := by
  funext r
  unfold cellStrain cellGamma rotSum Spec.dsg
  simp only [thinned_gap]
  congr 4
  funext i
  rw [thinned_disp z i (by omega), if_neg (by omega), one_mul]

theorem thinned_whole (e : ℕ) (z : ℕ → ℝ) : wholeGamma m e (thinned t z) = wholeGamma m e z := by
  unfold wholeGamma Spec.dsg
  simp only [thinned_gap]

/-- the transverse shear modulus of the thin plate -/
theorem Spec.ThinPlate.shearMod (h : ThinPlate t m m') (w : WF m) (hd : ∀ e ∈ m.eids, (m.tria e).Distinct) (pn : Bool) (al : ℝ) (fa : Bool)
    {e : ℕ} (he : e ∈ m.eids) (r : Fin 2) : Spec.shearMod m' pn al fa e r =
      t ^ 3 * (Spec.cavg m pn e (fun l => l.h) ^ 2 / (t ^ 2 * Spec.cavg m pn e (fun l => l.h) ^ 2 + al * Spec.charLen m fa e ^ 2) *
        (if r = 0 then Spec.cavg m pn e (fun l => l.k23) * Spec.cavg m pn e (fun l => l.E 0 0) else Spec.cavg m pn e (fun l => l.k13) * Spec.cavg m pn e (fun l => l.E 1 1))) := by
  have h1 := h.unit.charLen one_pos (relaid_wf w) hd fa he
  rw [one_mul] at h1
  change _ = Spec.charLen m fa e at h1
  unfold Spec.shearMod
  dsimp only
  rw [relaid_cavg h.toLamRel h.tri w hd pn he (c := t) (sel := fun l => l.h) (sel' := fun l => l.h) (fun p p' hh => hh.h), h1,
    relaid_cavg h.toLamRel h.tri w hd pn he (c := 1) (sel := fun l => l.k23) (sel' := fun l => l.k23) (fun p p' hh => by rw [hh.k23, one_mul]),
    relaid_cavg h.toLamRel h.tri w hd pn he (c := 1) (sel := fun l => l.k13) (sel' := fun l => l.k13) (fun p p' hh => by rw [hh.k13, one_mul]),
    relaid_cavg h.toLamRel h.tri w hd pn he (c := t) (sel := fun l => l.E 0 0) (sel' := fun l => l.E 0 0) (fun p p' hh => hh.E 0 0),
    relaid_cavg h.toLamRel h.tri w hd pn he (c := t) (sel := fun l => l.E 1 1) (sel' := fun l => l.E 1 1) (fun p p' hh => hh.E 1 1), mul_pow]
  split_ifs <;> ring

end

end Meshless
