import Verif.Props.K0s
import Verif.Spec.Modes

/-! C42, C44, C45: what the patch test, the stabilisation factor and the length `maxl` mean for the matrix returned by `add_k0s`. -/

set_option autoImplicit false

namespace Meshless
open Spec Finset

/-- the shear strain a cell method gives a triangle -/
noncomputable def Spec.methodStrain (m : Mesh) (method : String) : ℕ → (ℕ → ℝ) → Fin 2 → ℝ := if method = "cell-based" then cellStrain m else wholeGamma m

/-- both cell methods in one statement -/
theorem cell_energy {m : Mesh} (hm : Numbered m) (hf : FlatMesh m) {pn : Bool} (hh : HasProps m pn) (ht : Thick m pn) (al : ℝ) (fa : Bool) {K : Mat}
    (hK : K.dim = 5 * m.nids.length) {method : String} (hme : method = "cell-based" ∨ method = "cell-based-no-smoothing") (v u : ℕ → ℝ) :
    form K.dim (fun i j => (addK0s K m pn method al fa).1.get i j - K.get i j) v u = shearEnergy m pn al fa (methodStrain m method) v u := by
  rcases hme with rfl | rfl
  · obtain ⟨K', h1, _, h3⟩ := C38_energy hm hf hh ht al fa hK
    rw [h1]; exact h3 v u
  · obtain ⟨K', h1, _, h3⟩ := C39_energy hm hf hh ht al fa hK
    rw [h1]; exact h3 v u

/-- constant shear: `w = c + p x + q y` with uniform rotations `(r, s)` -/
def Spec.ShearPatch (m : Mesh) (z : ℕ → ℝ) (p q r s : ℝ) : Prop :=
  ∃ c, ∀ i ∈ m.nids, disp m z 2 i = c + p * nx m i + q * ny m i ∧ disp m z 3 i = r ∧ disp m z 4 i = s

theorem patch_method {m : Mesh} (hm : Numbered m) (hf : FlatMesh m) {z : ℕ → ℝ} {p q r s : ℝ} (hz : ShearPatch m z p q r s) {method : String}
    {e : ℕ} (he : e ∈ m.eids) :
    methodStrain m method e z 0 = p + rotFactor method * r ∧ methodStrain m method e z 1 = q + rotFactor method * s := by
  obtain ⟨c, h⟩ := hz
  unfold methodStrain rotFactor
  by_cases hc : method = "cell-based"
  · rw [if_pos hc, if_pos hc]
    obtain ⟨a, b⟩ := patch_cell hm hf (fun i hi => (h i hi).1) (fun i hi => (h i hi).2.1) (fun i hi => (h i hi).2.2) he
    rw [a, b]; constructor <;> ring
  · rw [if_neg hc, if_neg hc]
    obtain ⟨a, b⟩ := patch_whole hm hf (fun i hi => (h i hi).1) (fun i hi => (h i hi).2.1) (fun i hi => (h i hi).2.2) he
    rw [a, b]; constructor <;> ring

/-- C42: for two displacement fields of constant shear the increment gives the energy of the constant strains `(p + r, q + s)`, summed over the
triangles with their own moduli. With smoothing the rotations count `1 + 10^-15` times, from the literal `0.166666666666667`. -/
theorem C42_energy {m : Mesh} (hm : Numbered m) (hf : FlatMesh m) {pn : Bool} (hh : HasProps m pn) (ht : Thick m pn) (al : ℝ) (fa : Bool) {K : Mat}
    (hK : K.dim = 5 * m.nids.length) {method : String} (hme : method = "cell-based" ∨ method = "cell-based-no-smoothing") {z z' : ℕ → ℝ} {p q r s p' q' r' s' : ℝ}
    (hz : ShearPatch m z p q r s) (hz' : ShearPatch m z' p' q' r' s') :
    form K.dim (fun i j => (addK0s K m pn method al fa).1.get i j - K.get i j) z z' = (m.eids.map fun e => triArea m e *
      ((p + rotFactor method * r) * shearMod m pn al fa e 0 * (p' + rotFactor method * r')
        + (q + rotFactor method * s) * shearMod m pn al fa e 1 * (q' + rotFactor method * s'))).sum := by
  rw [cell_energy hm hf hh ht al fa hK hme]
  unfold shearEnergy
  congr 1
  refine List.map_congr_left fun e he => ?_
  rw [(patch_method hm hf hz he).1, (patch_method hm hf hz he).2, (patch_method hm hf hz' he).1, (patch_method hm hf hz' he).2]

/-- C44: for `alpha = 0` the increment uses the moduli of the laminate -/
theorem C44_zero {m : Mesh} (hm : Numbered m) (hf : FlatMesh m) {pn : Bool} (hh : HasProps m pn) (ht : Thick m pn) (fa : Bool) {K : Mat}
    (hK : K.dim = 5 * m.nids.length) {method : String} (hme : method = "cell-based" ∨ method = "cell-based-no-smoothing") (v u : ℕ → ℝ) :
    form K.dim (fun i j => (addK0s K m pn method 0 fa).1.get i j - K.get i j) v u = (m.eids.map fun e => triArea m e *
      (methodStrain m method e v 0 * (cavg m pn e (fun l => l.k23) * cavg m pn e (fun l => l.E 0 0)) * methodStrain m method e u 0
        + methodStrain m method e v 1 * (cavg m pn e (fun l => l.k13) * cavg m pn e (fun l => l.E 1 1)) * methodStrain m method e u 1)).sum := by
  rw [cell_energy hm hf hh ht 0 fa hK hme]
  unfold shearEnergy
  congr 1
  refine List.map_congr_left fun e he => ?_
  rw [(shearMod_zero ht fa he).1, (shearMod_zero ht fa he).2]

/-- the characteristic length of a triangle is positive -/
theorem charLen_pos {m : Mesh} (hf : FlatMesh m) (fa : Bool) {e : ℕ} (he : e ∈ m.eids) : 0 < charLen m fa e := by
  have hA : 0 < triArea m e := abs_pos.2 (hf.nondeg e he)
  unfold charLen
  dsimp only
  cases fa with
  | true => simpa using hA
  | false =>
    simp only [Bool.false_eq_true, if_false]
    apply lt_max_of_lt_left
    apply lt_max_of_lt_left
    unfold dist2
    rw [Real.sqrt_pos]
    by_contra h
    have h' : (nx m (m.tria e).n1 - nx m (m.tria e).n2) ^ 2 + (ny m (m.tria e).n1 - ny m (m.tria e).n2) ^ 2 = 0 :=
      le_antisymm (not_lt.1 h) (by positivity)
    have hx : nx m (m.tria e).n1 = nx m (m.tria e).n2 := by
      have := sq_nonneg (ny m (m.tria e).n1 - ny m (m.tria e).n2)
      have : (nx m (m.tria e).n1 - nx m (m.tria e).n2) ^ 2 = 0 := le_antisymm (by linarith) (sq_nonneg _)
      exact sub_eq_zero.1 (pow_eq_zero_iff two_ne_zero |>.1 this)
    have hy : ny m (m.tria e).n1 = ny m (m.tria e).n2 := by
      have := sq_nonneg (nx m (m.tria e).n1 - nx m (m.tria e).n2)
      have : (ny m (m.tria e).n1 - ny m (m.tria e).n2) ^ 2 = 0 := le_antisymm (by linarith) (sq_nonneg _)
      exact sub_eq_zero.1 (pow_eq_zero_iff two_ne_zero |>.1 this)
    refine hf.nondeg e he ?_
    rw [sarea3]; simp only [mean_single, hx, hy]; ring

/-- C44: strictly between 0 and the energy without stabilisation. Wherever a displacement has shear energy at all, raising `alpha` lowers it strictly
and never to zero. -/
theorem C44_strict {m : Mesh} (hm : Numbered m) (hf : FlatMesh m) {pn : Bool} (hh : HasProps m pn) (ht : Thick m pn) (hn : ShearNonneg m pn) {al al' : ℝ} (h0 : 0 ≤ al)
    (h : al < al') (fa : Bool) {K : Mat} (hK : K.dim = 5 * m.nids.length) {method : String} (hme : method = "cell-based" ∨ method = "cell-based-no-smoothing")
    {v : ℕ → ℝ} (hv : form K.dim (fun i j => (addK0s K m pn method 0 fa).1.get i j - K.get i j) v v ≠ 0) :
    0 < form K.dim (fun i j => (addK0s K m pn method al' fa).1.get i j - K.get i j) v v ∧
    form K.dim (fun i j => (addK0s K m pn method al' fa).1.get i j - K.get i j) v v <
      form K.dim (fun i j => (addK0s K m pn method al fa).1.get i j - K.get i j) v v := by
  rw [cell_energy hm hf hh ht _ fa hK hme] at hv
  rw [cell_energy hm hf hh ht _ fa hK hme, cell_energy hm hf hh ht _ fa hK hme]
  set g := methodStrain m method
  have key : ∀ a, 0 ≤ a → ∀ e ∈ m.eids, ∃ x : ℝ, 0 ≤ x ∧ (∀ b, shearMod m pn b fa e 0 * (g e v 0 * g e v 0) + shearMod m pn b fa e 1 * (g e v 1 * g e v 1) =
      cavg m pn e (fun l => l.h) ^ 2 / (cavg m pn e (fun l => l.h) ^ 2 + b * charLen m fa e ^ 2) * x) := by
    intro a _ e he
    refine ⟨cavg m pn e (fun l => l.k23) * cavg m pn e (fun l => l.E 0 0) * (g e v 0 * g e v 0) +
      cavg m pn e (fun l => l.k13) * cavg m pn e (fun l => l.E 1 1) * (g e v 1 * g e v 1), ?_, fun b => ?_⟩
    · exact add_nonneg (mul_nonneg (mul_nonneg (cavg_nonneg hn he fun p h => h.2.1) (cavg_nonneg hn he fun p h => h.2.2.1)) (mul_self_nonneg _))
        (mul_nonneg (mul_nonneg (cavg_nonneg hn he fun p h => h.1) (cavg_nonneg hn he fun p h => h.2.2.2)) (mul_self_nonneg _))
    · unfold shearMod
      simp only [if_true, one_ne_zero, if_false]
      ring
  have ex : ∃ e ∈ m.eids, triArea m e * (g e v 0 * shearMod m pn 0 fa e 0 * g e v 0 + g e v 1 * shearMod m pn 0 fa e 1 * g e v 1) ≠ 0 := by
    by_contra hc
    push Not at hc
    apply hv
    unfold shearEnergy
    apply List.sum_eq_zero
    intro x hx
    obtain ⟨e, he, rfl⟩ := List.mem_map.1 hx
    exact hc e he
  obtain ⟨e, he, hne⟩ := ex
  have hh2 : ∀ e ∈ m.eids, 0 < cavg m pn e (fun l => l.h) ^ 2 := fun e he => by have := ht e he; positivity
  obtain ⟨x, hx0, hx⟩ := key 0 le_rfl e he
  have hxp : 0 < x := by
    refine lt_of_le_of_ne hx0 fun hx1 => hne ?_
    have := hx 0
    rw [← hx1, mul_zero] at this
    rw [show g e v 0 * shearMod m pn 0 fa e 0 * g e v 0 + g e v 1 * shearMod m pn 0 fa e 1 * g e v 1 =
      shearMod m pn 0 fa e 0 * (g e v 0 * g e v 0) + shearMod m pn 0 fa e 1 * (g e v 1 * g e v 1) by ring, this, mul_zero]
  have hA : 0 < triArea m e := abs_pos.2 (hf.nondeg e he)
  have hl := charLen_pos hf fa he
  have hq := hh2 e he
  have strict : triArea m e * (g e v 0 * shearMod m pn al' fa e 0 * g e v 0 + g e v 1 * shearMod m pn al' fa e 1 * g e v 1) <
      triArea m e * (g e v 0 * shearMod m pn al fa e 0 * g e v 0 + g e v 1 * shearMod m pn al fa e 1 * g e v 1) := by
    apply mul_lt_mul_of_pos_left _ hA
    have e1 := hx al
    have e2 := hx al'
    have : cavg m pn e (fun l => l.h) ^ 2 / (cavg m pn e (fun l => l.h) ^ 2 + al' * charLen m fa e ^ 2) * x <
        cavg m pn e (fun l => l.h) ^ 2 / (cavg m pn e (fun l => l.h) ^ 2 + al * charLen m fa e ^ 2) * x := by
      apply mul_lt_mul_of_pos_right _ hxp
      have p1 : 0 ≤ al * charLen m fa e ^ 2 := by positivity
      have p2 : al * charLen m fa e ^ 2 < al' * charLen m fa e ^ 2 := mul_lt_mul_of_pos_right h (by positivity)
      exact div_lt_div_of_pos_left hq (by linarith) (by linarith)
    linarith
  have pos : 0 < triArea m e * (g e v 0 * shearMod m pn al' fa e 0 * g e v 0 + g e v 1 * shearMod m pn al' fa e 1 * g e v 1) := by
    apply mul_pos hA
    have e2 := hx al'
    have p1 : 0 < cavg m pn e (fun l => l.h) ^ 2 / (cavg m pn e (fun l => l.h) ^ 2 + al' * charLen m fa e ^ 2) * x := by
      have : 0 < al' := lt_of_le_of_lt h0 h
      positivity
    linarith
  have nn : ∀ e ∈ m.eids, 0 ≤ triArea m e * (g e v 0 * shearMod m pn al' fa e 0 * g e v 0 + g e v 1 * shearMod m pn al' fa e 1 * g e v 1) := by
    intro e he
    apply mul_nonneg (abs_nonneg _)
    have a0 := mul_nonneg (shearMod_nonneg hn (h0.trans h.le) fa he 0) (mul_self_nonneg (g e v 0))
    have a1 := mul_nonneg (shearMod_nonneg hn (h0.trans h.le) fa he 1) (mul_self_nonneg (g e v 1))
    nlinarith
  have mono : ∀ e ∈ m.eids, triArea m e * (g e v 0 * shearMod m pn al' fa e 0 * g e v 0 + g e v 1 * shearMod m pn al' fa e 1 * g e v 1) ≤
      triArea m e * (g e v 0 * shearMod m pn al fa e 0 * g e v 0 + g e v 1 * shearMod m pn al fa e 1 * g e v 1) := by
    intro e he
    apply mul_le_mul_of_nonneg_left _ (abs_nonneg _)
    have := mul_le_mul_of_nonneg_right (shearMod_antitone hn ht h0 h.le fa he 0) (mul_self_nonneg (g e v 0))
    have := mul_le_mul_of_nonneg_right (shearMod_antitone hn ht h0 h.le fa he 1) (mul_self_nonneg (g e v 1))
    linarith
  constructor
  · unfold shearEnergy
    refine lt_of_lt_of_le pos (List.single_le_sum ?_ _ (List.mem_map.2 ⟨e, he, rfl⟩))
    intro y hy
    obtain ⟨e', he', rfl⟩ := List.mem_map.1 hy
    exact nn e' he'
  · unfold shearEnergy
    exact List.sum_lt_sum _ _ mono ⟨e, he, strict⟩

/-- the longest side of a triangle -/
def Spec.Longest (m : Mesh) (e : ℕ) (l : ℝ) : Prop :=
  (∃ i j, IsCorner m e i ∧ IsCorner m e j ∧ l = dist2 m i j) ∧ ∀ i j, IsCorner m e i → IsCorner m e j → dist2 m i j ≤ l

/-- C45: the increment is the shear energy with the moduli divided by `1 + alpha * l^2 / h^2`, where `l` is the length of the longest side of the triangle,
or the square root of its area -/
theorem C45_energy {m : Mesh} (hm : Numbered m) (hf : FlatMesh m) {pn : Bool} (hh : HasProps m pn) (ht : Thick m pn) (al : ℝ) (fa : Bool) {K : Mat}
    (hK : K.dim = 5 * m.nids.length) {method : String} (hme : method = "cell-based" ∨ method = "cell-based-no-smoothing") {L : ℕ → ℝ}
    (hL : ∀ e ∈ m.eids, if fa then L e = Real.sqrt (triArea m e) else Longest m e (L e)) (v u : ℕ → ℝ) :
    form K.dim (fun i j => (addK0s K m pn method al fa).1.get i j - K.get i j) v u = (m.eids.map fun e => triArea m e *
      (methodStrain m method e v 0 * (cavg m pn e (fun l => l.k23) * cavg m pn e (fun l => l.E 0 0)) * methodStrain m method e u 0
        + methodStrain m method e v 1 * (cavg m pn e (fun l => l.k13) * cavg m pn e (fun l => l.E 1 1)) * methodStrain m method e u 1)
      / (1 + al * L e ^ 2 / cavg m pn e (fun l => l.h) ^ 2)).sum := by
  rw [cell_energy hm hf hh ht al fa hK hme]
  unfold shearEnergy
  congr 1
  refine List.map_congr_left fun e he => ?_
  have hl : L e = charLen m fa e := by
    have h := hL e he
    have w := hm.reachable.wf
    obtain ⟨-, l, h1, h2, h3⟩ := cellMaxl_longest hm.reachable hf he
    cases fa with
    | true => simpa [charLen] using h
    | false =>
      simp only [Bool.false_eq_true, if_false] at h
      rw [cellMaxl_eq w hf he false] at h1
      have h1' : charLen m false e = l := by injection h1
      rw [h1']
      obtain ⟨⟨i, j, hi, hj, hij⟩, h4⟩ := h
      obtain ⟨i', j', hi', hj', hij'⟩ := h2
      exact le_antisymm (hij ▸ h3 i j hi hj) (hij' ▸ h4 i' j' hi' hj')
  have h2 : cavg m pn e (fun l => l.h) ^ 2 ≠ 0 := pow_ne_zero 2 (ht e he)
  have hs : cavg m pn e (fun l => l.h) ^ 2 / (cavg m pn e (fun l => l.h) ^ 2 + al * charLen m fa e ^ 2) =
      1 / (1 + al * L e ^ 2 / cavg m pn e (fun l => l.h) ^ 2) := by
    rw [hl]
    rw [show (1 : ℝ) + al * charLen m fa e ^ 2 / cavg m pn e (fun l => l.h) ^ 2 = (cavg m pn e (fun l => l.h) ^ 2 + al * charLen m fa e ^ 2) /
      cavg m pn e (fun l => l.h) ^ 2 by rw [add_div, div_self h2], one_div_div]
  unfold shearMod
  simp only [hs, if_true, one_ne_zero, if_false]
  ring

/-! ### concrete cases: the unit square with unit stiffnesses -/

/-- deflection `x + 2 y`, rotations `(3, 4)` at the nodes (0,0), (1,0), (1,1), (0,1) -/
noncomputable def exShear (j : ℕ) : ℝ := [0, 0, 0, 3, 4, 0, 0, 1, 3, 4, 0, 0, 3, 3, 4, 0, 0, 2, 3, 4].getD j 0

theorem exShear_patch : ShearPatch (exAfter exIso exIso exIso exIso exIso exIso) exShear 1 2 3 4 := by
  refine ⟨0, fun i hi => ?_⟩
  have hs := exAfter_static exIso exIso exIso exIso exIso exIso
  have hn : (exAfter exIso exIso exIso exIso exIso exIso).nids = [1, 2, 3, 4] := exAfter_nids ..
  rw [hn] at hi
  simp only [List.mem_cons, List.not_mem_nil, or_false] at hi
  rcases hi with rfl | rfl | rfl | rfl <;> simp only [disp, hn, nx, ny, hs.xyz, exMesh_node1, exMesh_node2, exMesh_node3, exMesh_node4] <;>
    norm_num [exShear, List.idxOf_cons]

/-- the energy of that field without smoothing and without stabilisation is `(1 + 3)^2 + (2 + 4)^2 = 52` -/
theorem exShear_energy (pn fa : Bool) : form 20 (fun i j => (addK0s (Mat.zeros 20) (exAfter exIso exIso exIso exIso exIso exIso) pn "cell-based-no-smoothing" 0 fa).1.get i j
    - (Mat.zeros 20).get i j) exShear exShear = 52 := by
  have hs := exAfter_static exIso exIso exIso exIso exIso exIso
  have nm := exAfter_numbered exIso exIso exIso exIso exIso exIso
  have ht := exAfter_thick exIso (by norm_num [exIso, exLam]) pn
  refine (C42_energy nm (exAfter_flat ..) (exAfter_props _ _ _ _ _ _ pn) ht 0 fa (K := Mat.zeros 20)
    (by rw [exAfter_nids]; rfl) (Or.inr rfl) exShear_patch exShear_patch).trans ?_
  have area : ((exAfter exIso exIso exIso exIso exIso exIso).eids.map (triArea (exAfter exIso exIso exIso exIso exIso exIso))).sum = 1 := by
    rw [hs.eids, hs.striArea]; exact exMesh_area ..
  have : ∀ e ∈ (exAfter exIso exIso exIso exIso exIso exIso).eids, shearMod (exAfter exIso exIso exIso exIso exIso exIso) pn 0 fa e 0 = 1 ∧
      shearMod (exAfter exIso exIso exIso exIso exIso exIso) pn 0 fa e 1 = 1 := by
    intro e he
    obtain ⟨h0, h1⟩ := shearMod_zero ht fa he
    rw [h0, h1]
    simp only [cavg_homog nm.wf (exAfter_Homog exIso pn) he]
    norm_num [exIso, exLam]
  refine Eq.trans ?_ (show (52 : ℝ) * ((exAfter exIso exIso exIso exIso exIso exIso).eids.map (triArea (exAfter exIso exIso exIso exIso exIso exIso))).sum = 52 by
    rw [area]; norm_num)
  rw [← List.sum_map_mul_left]
  congr 1
  refine List.map_congr_left fun e he => ?_
  rw [(this e he).1, (this e he).2]
  rw [show rotFactor "cell-based-no-smoothing" = 1 by unfold rotFactor; rw [if_neg (by decide)]]
  ring

/-- C44: on the square the energy of that field is strictly smaller with `alpha = 0.2` than with `alpha = 0.1` -/
example (pn fa : Bool) : form 20 (fun i j => (addK0s (Mat.zeros 20) (exAfter exIso exIso exIso exIso exIso exIso) pn "cell-based-no-smoothing" 0.2 fa).1.get i j
      - (Mat.zeros 20).get i j) exShear exShear <
    form 20 (fun i j => (addK0s (Mat.zeros 20) (exAfter exIso exIso exIso exIso exIso exIso) pn "cell-based-no-smoothing" 0.1 fa).1.get i j
      - (Mat.zeros 20).get i j) exShear exShear :=
  (C44_strict (exAfter_numbered ..) (exAfter_flat ..) (exAfter_props _ _ _ _ _ _ pn) (exAfter_thick exIso (by norm_num [exIso, exLam]) pn)
    (exAfter_nonneg exIso (by norm_num [exIso, exLam]) pn) (by norm_num) (by norm_num) fa (K := Mat.zeros 20) (by rw [exAfter_nids]; rfl) (Or.inr rfl)
    (by rw [show (Mat.zeros 20).dim = 20 from rfl, exShear_energy]; norm_num)).2

/-- C45: the longest side of both triangles of the square is the diagonal, so the energy with `alpha = 1` is `52/(1 + 2)` -/
example (pn : Bool) : form 20 (fun i j => (addK0s (Mat.zeros 20) (exAfter exIso exIso exIso exIso exIso exIso) pn "cell-based-no-smoothing" 1 false).1.get i j
    - (Mat.zeros 20).get i j) exShear exShear = 52 / 3 := by
  have hs := exAfter_static exIso exIso exIso exIso exIso exIso
  have nm := exAfter_numbered exIso exIso exIso exIso exIso exIso
  have ht := exAfter_thick exIso (by norm_num [exIso, exLam]) pn
  have hK : (Mat.zeros 20).dim = 5 * (exAfter exIso exIso exIso exIso exIso exIso).nids.length := by rw [exAfter_nids]; rfl
  refine (C45_energy nm (exAfter_flat ..) (exAfter_props _ _ _ _ _ _ pn) ht 1 false hK (Or.inr rfl) (L := fun _ => Real.sqrt 2) (fun e he => ?_) exShear exShear).trans ?_
  · simp only [Bool.false_eq_true, if_false]
    have d : ∀ i j, dist2 (exAfter exIso exIso exIso exIso exIso exIso) i j = dist2 (exMesh exIso exIso exIso exIso exIso exIso) i j := by
      intro i j; unfold dist2 nx ny; rw [hs.xyz, hs.xyz]
    have he' : e = 1 ∨ e = 2 := by rw [hs.eids, exMesh_eids] at he; simpa using he
    have d0 : ∀ x : ℝ, x ≤ 2 → Real.sqrt x ≤ Real.sqrt 2 := fun x h => Real.sqrt_le_sqrt h
    refine ⟨⟨1, 3, ?_, ?_, ?_⟩, fun i j hi hj => ?_⟩
    · unfold IsCorner; rw [hs.tria]; rcases he' with rfl | rfl <;> simp [exMesh_tria1, exMesh_tria2]
    · unfold IsCorner; rw [hs.tria]; rcases he' with rfl | rfl <;> simp [exMesh_tria1, exMesh_tria2]
    · rw [d]; unfold dist2 nx ny; rw [exMesh_node1, exMesh_node3]; norm_num
    · have hc : ∀ i, IsCorner (exAfter exIso exIso exIso exIso exIso exIso) e i → i = 1 ∨ i = 2 ∨ i = 3 ∨ i = 4 := by
        intro i hi
        unfold IsCorner at hi
        rw [hs.tria] at hi
        rcases he' with rfl | rfl
        · rw [exMesh_tria1] at hi; dsimp only at hi; omega
        · rw [exMesh_tria2] at hi; dsimp only at hi; omega
      rw [d]
      unfold dist2 nx ny
      apply d0
      rcases hc i hi with rfl | rfl | rfl | rfl <;> rcases hc j hj with rfl | rfl | rfl | rfl <;>
        simp only [exMesh_node1, exMesh_node2, exMesh_node3, exMesh_node4] <;> norm_num
  · have h52 := exShear_energy pn false
    have h0 := C44_zero nm (exAfter_flat ..) (exAfter_props _ _ _ _ _ _ pn) ht false hK (Or.inr rfl) exShear exShear
    rw [show (Mat.zeros 20).dim = 20 from rfl] at h0
    rw [h0] at h52
    rw [← h52, div_eq_mul_inv, ← List.sum_map_mul_right]
    congr 1
    refine List.map_congr_left fun e he => ?_
    simp only [cavg_homog nm.wf (exAfter_Homog exIso pn) he]
    rw [Real.sq_sqrt (by norm_num), div_eq_mul_inv]
    norm_num [exIso, exLam]

/-- C40: lifting the square by 1 costs no shear energy; the field is `w = 1`, no rotations -/
example (pn fa : Bool) (K : Mat) (hK : K.dim = 20) : ∀ i < K.dim, ∑ j ∈ range K.dim,
    ((addK0s K (exAfter exIso exIso exIso exIso exIso exIso) pn "cell-based" 0.1 fa).1.get i j - K.get i j) * (if j % 5 = 2 then 1 else 0) = 0 := by
  have hn : (exAfter exIso exIso exIso exIso exIso exIso).nids = [1, 2, 3, 4] := exAfter_nids ..
  refine C40_translation (exAfter_numbered exIso exIso exIso exIso exIso exIso) (exAfter_flat ..) (exAfter_props _ _ _ _ _ _ pn)
    (exAfter_thick exIso (by norm_num [exIso, exLam]) pn) 0.1 fa (by rw [hn, hK]; rfl) (Or.inl rfl) (z := fun j => if j % 5 = 2 then 1 else 0) (c := 1)
    (fun i _ => ?_) (fun i _ => ?_) (fun i _ => ?_) <;> simp [disp]

/-- C41: tilting the square, `w = x`, `phix = -1`, costs no shear energy without smoothing -/
example (pn fa : Bool) (K : Mat) (hK : K.dim = 20) : ∀ i < K.dim, ∑ j ∈ range K.dim,
    ((addK0s K (exAfter exIso exIso exIso exIso exIso exIso) pn "cell-based-no-smoothing" 0.1 fa).1.get i j - K.get i j) *
      [0, 0, 0, -1, 0, 0, 0, 1, -1, 0, 0, 0, 1, -1, 0, 0, 0, 0, -1, 0].getD j 0 = 0 := by
  have hs := exAfter_static exIso exIso exIso exIso exIso exIso
  have hn : (exAfter exIso exIso exIso exIso exIso exIso).nids = [1, 2, 3, 4] := exAfter_nids ..
  have hmem : ∀ i ∈ (exAfter exIso exIso exIso exIso exIso exIso).nids, i = 1 ∨ i = 2 ∨ i = 3 ∨ i = 4 := by intro i hi; rw [hn] at hi; simpa using hi
  refine C41_whole (exAfter_numbered exIso exIso exIso exIso exIso exIso) (exAfter_flat ..) (exAfter_props _ _ _ _ _ _ pn)
    (exAfter_thick exIso (by norm_num [exIso, exLam]) pn) 0.1 fa (by rw [hn, hK]; rfl)
    (z := fun j => [0, 0, 0, -1, 0, 0, 0, 1, -1, 0, 0, 0, 1, -1, 0, 0, 0, 0, -1, 0].getD j 0) (c := 0) (p := 1) (q := 0)
    (fun i hi => ?_) (fun i hi => ?_) (fun i hi => ?_) <;>
  rcases hmem i hi with rfl | rfl | rfl | rfl <;> simp only [disp, hn, nx, ny, hs.xyz, exMesh_node1, exMesh_node2, exMesh_node3, exMesh_node4] <;>
    norm_num [List.idxOf_cons]

/-- C36: the call changes the matrix: from the zero matrix it makes one with energy 52 -/
example (pn fa : Bool) : (addK0s (Mat.zeros 20) (exAfter exIso exIso exIso exIso exIso exIso) pn "cell-based-no-smoothing" 0 fa).1 ≠ Mat.zeros 20 := by
  intro h
  have h52 := exShear_energy pn fa
  rw [h] at h52
  simp [form] at h52

/-- C37: some entry is changed, so the statement about changed entries is not empty -/
example (pn fa : Bool) : ∃ i j, (addK0s (Mat.zeros 20) (exAfter exIso exIso exIso exIso exIso exIso) pn "cell-based-no-smoothing" 0 fa).1.get i j ≠ (Mat.zeros 20).get i j := by
  by_contra h
  push Not at h
  have h52 := exShear_energy pn fa
  simp only [h, sub_self] at h52
  simp [form] at h52

end Meshless
