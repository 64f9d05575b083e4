import Verif.Spec.Parts
import Verif.Lemmas.ShearModes
import Verif.Props.Modes

/-! Meshes of several parts: the strains of an edge or triangle depend only on the displacements at the corners of its triangles; rigid motions of parts. -/

set_option autoImplicit false

namespace Meshless
open Spec Finset

theorem corner_in {m : Mesh} {e i : ℕ} (h : IsCorner m e i) : i ∈ corners m e := isCorner_mem.1 h

theorem sides_mem {α : Type} {l : List α} {s : α × α} (h : s ∈ sides l) : s.1 ∈ l ∧ s.2 ∈ l := by
  unfold sides at h
  obtain ⟨h1, h2⟩ := List.of_mem_zip (show (s.1, s.2) ∈ l.zip (l.rotate 1) from h)
  exact ⟨h1, List.mem_rotate.1 h2⟩

theorem grad_congr {m : Mesh} {P : List (List ℕ)} {f g : ℕ → ℝ} (h : ∀ l ∈ P, ∀ i ∈ l, f i = g i) : gradX m P f = gradX m P g ∧ gradY m P f = gradY m P g := by
  have hm : ∀ l ∈ P, mean f l = mean g l := fun l hl => mean_congr (h l hl)
  have e1 : circDy m P f = circDy m P g := by
    unfold circDy
    rw [List.map_congr_left fun s hs => by rw [hm _ (sides_mem hs).1, hm _ (sides_mem hs).2]]
  have e2 : circDx m P f = circDx m P g := by
    unfold circDx
    rw [List.map_congr_left fun s hs => by rw [hm _ (sides_mem hs).1, hm _ (sides_mem hs).2]]
  unfold gradX gradY
  rw [e1, e2]
  exact ⟨rfl, rfl⟩

/-- the nodes of the smoothing domain of an edge are corners of its triangles -/
theorem dom_corner {m : Mesh} (w : WF m) (hp : Proper m) {k : Key} (hk : k ∈ m.ekeys) {l : List ℕ} (hl : l ∈ dom m k) {i : ℕ} (hi : i ∈ l) :
    ∃ t ∈ (m.edge k).trias, IsCorner m t i := by
  rcases edge_shape w hp hk with ⟨t, o, htr, hs, _⟩ | ⟨t1, t2, o1, o2, htr, hs1, hs2, _⟩
  · have hdom : dom m k = [[k.1], corners m t, [k.2]] := by simp [dom, htr]
    rw [hdom] at hl
    rw [htr]
    refine ⟨t, by simp, ?_⟩
    simp only [List.mem_cons, List.not_mem_nil, or_false] at hl
    rcases hl with rfl | rfl | rfl
    · rw [List.mem_singleton] at hi; subst hi; exact (hs.corner_iff _).2 (Or.inl rfl)
    · exact isCorner_mem.2 hi
    · rw [List.mem_singleton] at hi; subst hi; exact (hs.corner_iff _).2 (Or.inr (Or.inl rfl))
  · have hdom : dom m k = [[k.1], corners m t1, [k.2], corners m t2] := by simp [dom, htr]
    rw [hdom] at hl
    rw [htr]
    simp only [List.mem_cons, List.not_mem_nil, or_false] at hl
    rcases hl with rfl | rfl | rfl | rfl
    · rw [List.mem_singleton] at hi; subst hi; exact ⟨t1, by simp, (hs1.corner_iff _).2 (Or.inl rfl)⟩
    · exact ⟨t1, by simp, isCorner_mem.2 hi⟩
    · rw [List.mem_singleton] at hi; subst hi; exact ⟨t1, by simp, (hs1.corner_iff _).2 (Or.inr (Or.inl rfl))⟩
    · exact ⟨t2, by simp, isCorner_mem.2 hi⟩

theorem domGrad_congr {m : Mesh} (w : WF m) (hp : Proper m) {k : Key} (hk : k ∈ m.ekeys) {f g : ℕ → ℝ} (h : ∀ t ∈ (m.edge k).trias, ∀ i, IsCorner m t i → f i = g i) :
    gradX m (dom m k) f = gradX m (dom m k) g ∧ gradY m (dom m k) f = gradY m (dom m k) g :=
  grad_congr fun _ hl i hi => by obtain ⟨t, ht, hc⟩ := dom_corner w hp hk hl hi; exact h t ht i hc

theorem eps_congr {m : Mesh} (w : WF m) (hp : Proper m) {k : Key} (hk : k ∈ m.ekeys) {v v' : ℕ → ℝ}
    (h : ∀ t ∈ (m.edge k).trias, ∀ i, IsCorner m t i → ∀ r < 5, disp m v r i = disp m v' r i) : eps m k v = eps m k v' := by
  have g := fun r (hr : r < 5) => domGrad_congr w hp hk (f := disp m v r) (g := disp m v' r) fun t ht i hi => h t ht i hi r hr
  unfold eps
  rw [(g 0 (by omega)).1, (g 0 (by omega)).2, (g 1 (by omega)).1, (g 1 (by omega)).2, (g 3 (by omega)).1, (g 3 (by omega)).2, (g 4 (by omega)).1, (g 4 (by omega)).2]

theorem dsg_congr {m : Mesh} {z z' : ℕ → ℝ} {P Q R : List ℕ} (h : ∀ i, i ∈ P ∨ i ∈ Q ∨ i ∈ R → ∀ r < 5, disp m z r i = disp m z' r i) : dsg m z P Q R = dsg m z' P Q R := by
  have hP := fun r (hr : r < 5) => mean_congr (l := P) (f := disp m z r) (g := disp m z' r) fun i hi => h i (Or.inl hi) r hr
  have hQ := fun r (hr : r < 5) => mean_congr (l := Q) (f := disp m z r) (g := disp m z' r) fun i hi => h i (Or.inr (Or.inl hi)) r hr
  have hR := fun r (hr : r < 5) => mean_congr (l := R) (f := disp m z r) (g := disp m z' r) fun i hi => h i (Or.inr (Or.inr hi)) r hr
  unfold dsg gap
  rw [hP 2 (by omega), hP 3 (by omega), hP 4 (by omega), hQ 2 (by omega), hQ 3 (by omega), hQ 4 (by omega), hR 2 (by omega), hR 3 (by omega), hR 4 (by omega)]

theorem wholeGamma_congr {m : Mesh} {e : ℕ} {z z' : ℕ → ℝ} (h : ∀ i, IsCorner m e i → ∀ r < 5, disp m z r i = disp m z' r i) : wholeGamma m e z = wholeGamma m e z' := by
  unfold wholeGamma
  dsimp only
  have hc : ∀ i, i ∈ [(m.tria e).n1] ∨ i ∈ [(m.tria e).n2] ∨ i ∈ [(m.tria e).n3] → IsCorner m e i := by
    intro i hi; unfold IsCorner; simpa using hi
  rw [dsg_congr fun i hi => h i (hc i hi), dsg_congr (P := [(m.tria e).n2]) fun i hi => h i (hc i (by tauto))]

theorem cellStrain_congr {m : Mesh} {e : ℕ} {z z' : ℕ → ℝ} (h : ∀ i, IsCorner m e i → ∀ r < 5, disp m z r i = disp m z' r i) : cellStrain m e z = cellStrain m e z' := by
  funext r
  unfold cellStrain cellGamma rotSum
  rw [List.map_congr_left fun s hs => by
    rw [dsg_congr (z := z) (z' := z') fun i hi => ?_]
    refine h i ?_
    have hc : ∀ l ∈ tpoly m e, i ∈ l → IsCorner m e i := by
      intro l hl hi; unfold tpoly at hl; unfold IsCorner
      simp only [List.mem_cons, List.not_mem_nil, or_false] at hl
      rcases hl with rfl | rfl | rfl <;> simp at hi <;> simp [hi]
    rcases hi with hi | hi | hi
    · exact isCorner_mem.2 hi
    · exact hc _ (sides_mem hs).1 hi
    · exact hc _ (sides_mem hs).2 hi]
  rw [List.map_congr_left fun i hi => h i (isCorner_mem.2 hi) (3 + r.val) (by omega)]

/-! ### separate sets of nodes -/

theorem onlyAt_disp {m : Mesh} (N : Set ℕ) (v : ℕ → ℝ) {i r : ℕ} (hi : i ∈ m.nids) (hr : r < 5) :
    disp m (onlyAt m N v) r i = open Classical in if i ∈ N then disp m v r i else 0 := by
  unfold disp onlyAt
  rw [show (5 * m.nids.idxOf i + r) / 5 = m.nids.idxOf i by omega, List.getD_eq_getElem _ _ (List.idxOf_lt_length_of_mem hi), List.getElem_idxOf]

theorem onlyAt_in {m : Mesh} {N : Set ℕ} {v : ℕ → ℝ} {i r : ℕ} (hi : i ∈ m.nids) (hN : i ∈ N) (hr : r < 5) : disp m (onlyAt m N v) r i = disp m v r i := by
  rw [onlyAt_disp N v hi hr, if_pos hN]

theorem onlyAt_out {m : Mesh} {N : Set ℕ} {v : ℕ → ℝ} {i r : ℕ} (hi : i ∈ m.nids) (hN : i ∉ N) (hr : r < 5) : disp m (onlyAt m N v) r i = 0 := by
  rw [onlyAt_disp N v hi hr, if_neg hN]

/-- the triangles at an edge are on the same side of the border of a separate set -/
theorem edge_separate {m : Mesh} (w : WF m) (hp : Proper m) {N : Set ℕ} (hN : Separate m N) {k : Key} (hk : k ∈ m.ekeys) :
    (∀ t ∈ (m.edge k).trias, ∀ i, IsCorner m t i → i ∈ N) ∨ ∀ t ∈ (m.edge k).trias, ∀ i, IsCorner m t i → i ∉ N := by
  have key : ∀ t ∈ (m.edge k).trias, t ∈ m.eids ∧ IsCorner m t k.1 := fun t ht => by
    obtain ⟨o, hs, _⟩ := side_of w hp.distinct hk ht
    exact ⟨hs.mem, (hs.corner_iff _).2 (Or.inl rfl)⟩
  by_cases h : k.1 ∈ N
  · exact Or.inl fun t ht => (hN t (key t ht).1).resolve_right fun h' => h' _ (key t ht).2 h
  · exact Or.inr fun t ht => (hN t (key t ht).1).resolve_left fun h' => h (h' _ (key t ht).2)

theorem disp_none (m : Mesh) (r : ℕ) : disp m (fun _ => 0) r = fun _ => 0 := rfl

theorem eps_none (m : Mesh) (k : Key) : eps m k (fun _ => 0) = 0 := by
  have h : ∀ r, gradX m (dom m k) (disp m (fun _ => 0) r) = 0 ∧ gradY m (dom m k) (disp m (fun _ => 0) r) = 0 := by
    intro r
    have : ∀ l, mean (disp m (fun _ => 0) r) l = 0 := fun l => by unfold mean; rw [disp_none]; simp
    unfold gradX gradY circDx circDy
    simp [this]
  unfold eps
  simp only [(h _).1, (h _).2, add_zero]
  funext i
  fin_cases i <;> rfl

theorem dsg_none (m : Mesh) (P Q R : List ℕ) : dsg m (fun _ => 0) P Q R = 0 := by
  have : ∀ r l, mean (disp m (fun _ => 0) r) l = 0 := fun r l => by unfold mean; rw [disp_none]; simp
  unfold dsg gap
  simp only [this]
  funext i
  fin_cases i <;> simp

theorem wholeGamma_none (m : Mesh) (e : ℕ) : wholeGamma m e (fun _ => 0) = 0 := by
  unfold wholeGamma; simp only [dsg_none, ite_self]

theorem cellStrain_none (m : Mesh) (e : ℕ) : cellStrain m e (fun _ => 0) = 0 := by
  funext r
  unfold cellStrain cellGamma rotSum
  simp [dsg_none, disp_none]

/-- strains of displacements restricted to a separate set -/
theorem eps_only {m : Mesh} (w : WF m) (hp : Proper m) {N : Set ℕ} {k : Key} (hk : k ∈ m.ekeys) (v : ℕ → ℝ) :
    ((∀ t ∈ (m.edge k).trias, ∀ i, IsCorner m t i → i ∈ N) → eps m k (onlyAt m N v) = eps m k v) ∧
    ((∀ t ∈ (m.edge k).trias, ∀ i, IsCorner m t i → i ∉ N) → eps m k (onlyAt m N v) = 0) := by
  have hn : ∀ t ∈ (m.edge k).trias, ∀ i, IsCorner m t i → i ∈ m.nids := fun t ht i hi => by
    obtain ⟨o, hs, _⟩ := side_of w hp.distinct hk ht
    exact w.corner_mem hs.mem (isCorner_mem.1 hi)
  refine ⟨fun h => eps_congr w hp hk fun t ht i hi r hr => onlyAt_in (hn t ht i hi) (h t ht i hi) hr, fun h => ?_⟩
  rw [← eps_none m k]
  exact eps_congr w hp hk fun t ht i hi r hr => by rw [onlyAt_out (hn t ht i hi) (h t ht i hi) hr]; rfl

/-! ### rigid motions of parts -/

theorem samePart_mem {m : Mesh} (w : WF m) (hp : Proper m) {e e' : ℕ} (he : e ∈ m.eids) (h : SamePart m e e') : e' ∈ m.eids := by
  induction h with
  | refl => exact he
  | tail _ h _ => obtain ⟨k, hk, _, h2⟩ := h; exact (side_of w hp.distinct hk h2).choose_spec.1.mem

/-- a pair of fields without smoothed strain is one rigid motion on every part -/
theorem rigid_part {m : Mesh} (w : WF m) (hp : Proper m) (hg : Planar m) {f g : ℕ → ℝ} (hu : ∀ k ∈ m.ekeys, Unstrained m f g k) {e : ℕ} (he : e ∈ m.eids) :
    ∃ a b c, ∀ e', SamePart m e e' → RigidOn m e' f g a b c := by
  obtain ⟨a, b, c, h0⟩ := rigid_all w hp hg hu he
  refine ⟨a, b, c, fun t ht => ?_⟩
  induction ht with
  | refl => exact h0
  | tail _ hA ih =>
    obtain ⟨k, hk, _, h2⟩ := id hA
    obtain ⟨a', b', c', h'⟩ := rigid_all w hp hg hu ((side_of w hp.distinct hk h2).choose_spec.1.mem)
    obtain ⟨rfl, rfl, rfl⟩ := rigid_same w hp hg hA ih h'
    exact h'

/-- if the rotations are uniform the deflection is affine on every part -/
theorem deflection_part {m : Mesh} (w : WF m) (hp : Proper m) {d : ℕ → ℝ} {p q θ : ℝ} {e : ℕ} 
    (h : ∀ e', SamePart m e e' → ∃ c, Aff m e' (disp m d 2) c (-(θ * p)) (-(θ * q))) :
    ∃ s, ∀ e', SamePart m e e' → ∀ i, IsCorner m e' i → disp m d 2 i = s - θ * (p * nx m i + q * ny m i) := by
  obtain ⟨c, h0⟩ := h e .refl
  have hall : ∀ t, SamePart m e t → Aff m t (disp m d 2) c (-(θ * p)) (-(θ * q)) := by
    intro t ht
    induction ht with
    | refl => exact h0
    | tail h1 hA ih =>
      obtain ⟨c', h'⟩ := h _ (h1.tail hA)
      obtain ⟨k, hk, k1, k2⟩ := hA
      obtain ⟨o, hs, _⟩ := side_of w hp.distinct hk k1
      obtain ⟨o', hs', _⟩ := side_of w hp.distinct hk k2
      have e1 := (aff_values hs ih).1
      have e2 := (aff_values hs' h').1
      have : c' = c := by linarith
      exact this ▸ h'
  refine ⟨c, fun t ht i hi => ?_⟩
  rw [hall t ht i hi]
  ring

/-- with the origin at the centroid, shear-free rotations are uniform on a part of more than one triangle -/
theorem no_twist_part {m : Mesh} (w : WF m) (hp : Proper m) (hg : Planar m) {d : ℕ → ℝ} {p q r θ : ℝ} (hθ : θ ≠ 0) {e e' : ℕ} (he : SamePart m e e') (hne : e' ≠ e)
    (h : ∀ e', SamePart m e e' → ∃ c, Aff m e' (disp m d 2) c (-(θ * (p - r * mean (ny m) (corners m e')))) (-(θ * (q + r * mean (nx m) (corners m e'))))) : r = 0 := by
  obtain ⟨t, ht, t', hA, hd⟩ : ∃ t, SamePart m e t ∧ ∃ t', Adjacent m t t' ∧ t ≠ t' := by
    by_contra hcon
    push Not at hcon
    apply hne
    have : ∀ t, SamePart m e t → t = e := by
      intro t ht
      induction ht with
      | refl => rfl
      | tail h1 h2 ih => rw [← hcon _ h1 _ h2]; exact ih
    exact this _ he
  have ht' := Relation.ReflTransGen.tail ht hA
  obtain ⟨k, hk, k1, k2⟩ := hA
  obtain ⟨t1, t2, o1, o2, htr, hs1, hs2⟩ : ∃ t1 t2 o1 o2, (m.edge k).trias = [t1, t2] ∧ Side m t1 k o1 ∧ Side m t2 k o2 := by
    rcases edge_shape w hp hk with ⟨t0, o, htr, _, _⟩ | ⟨t1, t2, o1, o2, htr, hs1, hs2, _⟩
    · rw [htr] at k1 k2; simp only [List.mem_singleton] at k1 k2; exact absurd (k1.trans k2.symm) hd
    · exact ⟨t1, t2, o1, o2, htr, hs1, hs2⟩
  have hp12 : SamePart m e t1 ∧ SamePart m e t2 := by
    rw [htr] at k1 k2
    simp only [List.mem_cons, List.not_mem_nil, or_false] at k1 k2
    rcases k1 with rfl | rfl <;> rcases k2 with rfl | rfl
    · exact absurd rfl hd
    · exact ⟨ht, ht'⟩
    · exact ⟨ht', ht⟩
    · exact absurd rfl hd
  obtain ⟨c1, h1⟩ := h t1 hp12.1
  obtain ⟨c2, h2'⟩ := h t2 hp12.2
  obtain ⟨a1, a2, _⟩ := aff_values hs1 h1
  obtain ⟨b1, b2, _⟩ := aff_values hs2 h2'
  rw [mean_corners hs1, mean_corners hs1] at a1 a2
  rw [mean_corners hs2, mean_corners hs2] at b1 b2
  have hop := cr_opposite hg hk htr hs1 hs2
  have hne : cr m k.1 k.2 o2 - cr m k.1 k.2 o1 ≠ 0 := by
    intro h; rw [sub_eq_zero.1 h] at hop; exact absurd hop (not_lt.2 (mul_self_nonneg _))
  have hz : θ * r * (cr m k.1 k.2 o2 - cr m k.1 k.2 o1) = 0 := by
    have : θ * r * (cr m k.1 k.2 o2 - cr m k.1 k.2 o1) = 3 *
      (((c2 + -(θ * (p - r * ((ny m k.1 + ny m k.2 + ny m o2) / 3))) * nx m k.2 + -(θ * (q + r * ((nx m k.1 + nx m k.2 + nx m o2) / 3))) * ny m k.2) -
        (c2 + -(θ * (p - r * ((ny m k.1 + ny m k.2 + ny m o2) / 3))) * nx m k.1 + -(θ * (q + r * ((nx m k.1 + nx m k.2 + nx m o2) / 3))) * ny m k.1)) -
      ((c1 + -(θ * (p - r * ((ny m k.1 + ny m k.2 + ny m o1) / 3))) * nx m k.2 + -(θ * (q + r * ((nx m k.1 + nx m k.2 + nx m o1) / 3))) * ny m k.2) -
        (c1 + -(θ * (p - r * ((ny m k.1 + ny m k.2 + ny m o1) / 3))) * nx m k.1 + -(θ * (q + r * ((nx m k.1 + nx m k.2 + nx m o1) / 3))) * ny m k.1))) := by
      unfold cr; ring
    rw [this, ← a1, ← a2, ← b1, ← b2]; ring
  rcases mul_eq_zero.1 hz with h | h
  · exact (mul_eq_zero.1 h).resolve_left hθ
  · exact absurd h hne

end Meshless
