import Verif.Lemmas.Turn
import Verif.Spec.Geometric

set_option autoImplicit false

namespace Meshless
open Spec Finset

section
variable {m : Mesh}

theorem dom_inMesh (w : WF m) (hp : Proper m) {k : Key} (hk : k ∈ m.ekeys) {A : List ℕ} (hA : A ∈ Spec.dom m k) : InMesh m A := by
  rcases dom_shape w hp hk with ⟨A, B, C, hd, hA', hB, hC⟩ | ⟨A, B, C, D, hd, hA', hB, hC, hD⟩ <;> rw [hd] at hA <;>
    simp only [List.mem_cons, List.not_mem_nil, or_false] at hA
  · rcases hA with rfl | rfl | rfl <;> assumption
  · rcases hA with rfl | rfl | rfl | rfl <;> assumption

theorem ofProp_congr {P : Lam → Prop} {sel sel' : Lam → ℝ} (hs : ∀ p, P p → sel p = sel' p) {o : Option Lam} (ho : ∀ p, o = some p → P p) :
    ofProp sel o = ofProp sel' o := by
  cases o with
  | none => rfl
  | some p => exact hs p (ho p rfl)

/-- only the laminates of the mesh matter for an average -/
theorem avg_congr (w : WF m) (hp : Proper m) {P : Lam → Prop} (hP : AllLams m P) {k : Key} (hk : k ∈ m.ekeys) (pn : Bool) {sel sel' : Lam → ℝ}
    (hs : ∀ p, P p → sel p = sel' p) : Spec.avg m pn k sel = Spec.avg m pn k sel' := by
  unfold Spec.avg
  cases pn with
  | true =>
    simp only [if_true]
    congr 2
    refine List.map_congr_left fun A hA => ?_
    unfold Spec.mean
    congr 2
    exact List.map_congr_left fun i hi => ofProp_congr hs (hP.1 i ((dom_inMesh w hp hk hA).2 i hi))
  | false =>
    simp only [Bool.false_eq_true, if_false]
    congr 2
    refine List.map_congr_left fun t ht => ?_
    rw [ofProp_congr hs (hP.2 t (trias_mem w hp hk ht))]

/-- the symmetrised product of two slopes, as strains -/
def slopeProd (x y x' y' : ℝ) : Fin 6 → ℝ := ![x * x', y * y', x * y' + y * x', 0, 0, 0]

theorem slopeProd_turn (q : Fin 2 → Fin 2 → ℝ) (x y x' y' : ℝ) :
    slopeProd (q 0 0 * x + q 0 1 * y) (q 1 0 * x + q 1 1 * y) (q 0 0 * x' + q 0 1 * y') (q 1 0 * x' + q 1 1 * y') = turnStrain q (slopeProd x y x' y') := by
  funext i
  fin_cases i <;> simp [slopeProd, turnStrain] <;> ring

/-- the geometric energy density is a laminate product -/
theorem geo_term (w : WF m) (hp : Proper m) (hs : AllLams m SymmetricAB) {k : Key} (hk : k ∈ m.ekeys) (pn : Bool) (d : ℕ → ℝ) (x y x' y' : ℝ) :
    x * membrane m pn k d 0 * x' + x * membrane m pn k d 2 * y' + y * membrane m pn k d 2 * x' + y * membrane m pn k d 1 * y' =
      Spec.avg m pn k (fun l => lamProd l (slopeProd x y x' y') (Spec.eps m k d)) := by
  rw [← avg_lamProd]
  have hA : ∀ i j : Fin 3, Spec.avg m pn k (fun l => l.A i j) = Spec.avg m pn k (fun l => abd l (Fin.castLE (by decide) i) (Fin.castLE (by decide) j)) := by
    intro i j
    refine avg_congr w hp hs hk pn fun p h => ?_
    have := h.1 i j
    revert this
    fin_cases i <;> fin_cases j <;> intro this <;> first | rfl | exact this
  have hB : ∀ i j : Fin 3, Spec.avg m pn k (fun l => l.B i j) = Spec.avg m pn k (fun l => abd l (Fin.castLE (by decide) i) (Fin.natAdd 3 j)) := by
    intro i j
    refine avg_congr w hp hs hk pn fun p h => ?_
    have := h.2 i j
    revert this
    fin_cases i <;> fin_cases j <;> intro this <;> first | rfl | exact this
  simp only [membrane, hA, hB, Fin.sum_univ_three, Fin.sum_univ_six, slopeProd]
  simp only [Matrix.cons_val_zero, Matrix.cons_val_one, Matrix.cons_val, zero_mul, add_zero]
  change x * _ * x' + x * _ * y' + y * _ * x' + y * _ * y' = _
  simp only [show (Fin.castLE (by decide : 3 ≤ 6) (0 : Fin 3)) = (0 : Fin 6) from rfl, show (Fin.castLE (by decide : 3 ≤ 6) (1 : Fin 3)) = (1 : Fin 6) from rfl,
    show (Fin.castLE (by decide : 3 ≤ 6) (2 : Fin 3)) = (2 : Fin 6) from rfl, show (Fin.natAdd 3 (0 : Fin 3)) = (3 : Fin 6) from rfl,
    show (Fin.natAdd 3 (1 : Fin 3)) = (4 : Fin 6) from rfl, show (Fin.natAdd 3 (2 : Fin 3)) = (5 : Fin 6) from rfl]
  ring

end

section
variable {π σ : ℕ → ℕ} {s a b : ℝ} {m m' : Mesh}

/-- the geometric energy under renumbering and change of the unit of length -/
theorem Spec.SamePlate.geometric (h : SamePlate π σ s a b m m') (w : WF m) (w' : WF m') (hp : Proper m) (hg : Planar m) (hs0 : s ≠ 0) (pn : Bool)
    {d v u d' v' u' : ℕ → ℝ} (hd : ∀ r < 5, ∀ i ∈ m.nids, disp m' d' r (π i) = disp m d r i)
    (hv : ∀ i ∈ m.nids, disp m' v' 2 (π i) = disp m v 2 i) (hu : ∀ i ∈ m.nids, disp m' u' 2 (π i) = disp m u 2 i) :
    Spec.geometric m' pn d' v' u' = Spec.geometric m pn d v u / s := by
  have heps : ∀ k ∈ m.ekeys, ∀ p, Spec.eps m' (keyMap π k) d' p = Spec.eps m k d p / s := by
    intro k hk p
    obtain ⟨x0, y0⟩ := h.grad w w' hp hk hs0 (hd 0 (by norm_num))
    obtain ⟨x1, y1⟩ := h.grad w w' hp hk hs0 (hd 1 (by norm_num))
    obtain ⟨x3, y3⟩ := h.grad w w' hp hk hs0 (hd 3 (by norm_num))
    obtain ⟨x4, y4⟩ := h.grad w w' hp hk hs0 (hd 4 (by norm_num))
    unfold Spec.eps
    rw [x0, y0, x1, y1, x3, y3, x4, y4]
    fin_cases p <;> simp <;> ring
  have hmem : ∀ k ∈ m.ekeys, ∀ i, membrane m' pn (keyMap π k) d' i = membrane m pn k d i / s := by
    intro k hk i
    unfold membrane
    rw [Finset.sum_div]
    refine Finset.sum_congr rfl fun j _ => ?_
    rw [heps k hk, heps k hk, h.avg w w' hp hg hk hs0, h.avg w w' hp hg hk hs0]
    ring
  unfold Spec.geometric
  rw [((h.ekeys w w' hp.distinct).map _).sum_eq, List.map_map, div_eq_mul_inv, ← List.sum_map_mul_right]
  congr 1
  refine List.map_congr_left fun k hk => ?_
  simp only [Function.comp]
  obtain ⟨ε, he, h1, _⟩ := h.dom w w' hp hk
  have habs : |sarea m' (Spec.dom m' (keyMap π k))| = s ^ 2 * |sarea m (Spec.dom m k)| := by
    rw [h1, abs_mul, abs_mul, abs_of_nonneg (sq_nonneg s)]
    rcases he with rfl | rfl <;> simp
  obtain ⟨xv, yv⟩ := h.grad w w' hp hk hs0 hv
  obtain ⟨xu, yu⟩ := h.grad w w' hp hk hs0 hu
  rw [habs, xv, yv, xu, yu, hmem k hk, hmem k hk, hmem k hk]
  field_simp

end

section
variable {q : Fin 2 → Fin 2 → ℝ} {π σ : ℕ → ℕ} {a b : ℝ} {m m' : Mesh}

theorem glued_lams {P : Lam → Prop} (h : TurnedPlate q π σ a b m m') (hP : AllLams m' P) : AllLams (glued π σ m m') P :=
  ⟨fun i hi p hp => hP.1 (π i) (h.nids.mem_iff.2 (List.mem_map_of_mem hi)) p hp,
    fun e he p hp => hP.2 (σ e) (h.eids.mem_iff.2 (List.mem_map_of_mem he)) p hp⟩

/-- the geometric energy of the turned plate -/
theorem Spec.TurnedPlate.geometric (h : TurnedPlate q π σ a b m m') (hq : Orthogonal q) (w : WF m) (w' : WF m') (hp : Proper m) (hg : Planar m)
    (hs : AllLams m SymmetricAB) (hs' : AllLams m' SymmetricAB)
    (hbasic : ∀ i ∈ m'.nids, (m'.node i).cp (m'.node i).xyz = (m'.node i).xyz)
    (hflat : ∀ i ∈ m'.nids, ∀ j ∈ m'.nids, (m'.node i).xyz.z = (m'.node j).xyz.z) (pn : Bool)
    {d v u d' v' u' : ℕ → ℝ} (hd : TurnedDisp q π m m' d d') (hv : ∀ i ∈ m.nids, disp m' v' 2 (π i) = disp m v 2 i)
    (hu : ∀ i ∈ m.nids, disp m' u' 2 (π i) = disp m u 2 i) : Spec.geometric m' pn d' v' u' = Spec.geometric m pn d v u := by
  have h1 := h.same.geometric (glued_wf w) w' (glued_proper hp) (h.gluedPlanar hq w hp hg hbasic hflat) one_ne_zero pn
    (d := pulled π m m' d') (v := v) (u := u) (d' := d') (v' := v') (u' := u')
    (fun r hr i hi => (pulled_disp d' hr hi).symm) hv hu
  rw [h1, div_one]
  unfold Spec.geometric
  congr 1
  refine List.map_congr_left fun k hk => ?_
  dsimp only
  rw [geo_term (glued_wf w) (glued_proper hp) (glued_lams h hs') hk, geo_term w hp hs hk, glued_dom, h.darea hq w hp hk, h.eps hq w hp hk hd]
  congr 1
  have hz : ∀ z : ℕ → ℝ, disp (glued π σ m m') z 2 = disp m z 2 := fun z => rfl
  rw [hz, hz, (h.grad hq w hp hk _).1, (h.grad hq w hp hk _).2, (h.grad hq w hp hk _).1, (h.grad hq w hp hk _).2, slopeProd_turn]
  exact h.avg hq w hp hk pn fun p p' hpp => hpp.prod _ _

end

end Meshless
