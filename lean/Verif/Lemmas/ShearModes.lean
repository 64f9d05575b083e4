import Verif.Lemmas.Modes
import Verif.Lemmas.K0sPatch

/-! Shear strains of a triangle whose rotations are a rigid field, and what their vanishing says about the deflection. -/

set_option autoImplicit false

namespace Meshless
open Spec

/-- the shear gap strain of an affine deflection with rotations `(a - r y, b + r x)`: gradient plus the rotations at the origin -/
theorem dsg_affine {m : Mesh} {z : ℕ → ℝ} {c p q a b r : ℝ} {P Q R : List ℕ} (hP : P ≠ []) (hQ : Q ≠ []) (hR : R ≠ []) (hA : sarea m [P, Q, R] ≠ 0)
    (hw : ∀ i, i ∈ P ∨ i ∈ Q ∨ i ∈ R → disp m z 2 i = c + p * nx m i + q * ny m i)
    (hx : ∀ i, i ∈ P ∨ i ∈ Q ∨ i ∈ R → disp m z 3 i = a - r * ny m i) (hy : ∀ i, i ∈ P ∨ i ∈ Q ∨ i ∈ R → disp m z 4 i = b + r * nx m i) :
    dsg m z P Q R 0 = p + (a - r * mean (ny m) P) ∧ dsg m z P Q R 1 = q + (b + r * mean (nx m) P) := by
  have lin3 : ∀ l : List ℕ, l ≠ [] → (∀ i ∈ l, i ∈ P ∨ i ∈ Q ∨ i ∈ R) → mean (disp m z 3) l = a - r * mean (ny m) l := by
    intro l hl h
    rw [mean_lin (m := m) (f := disp m z 3) (c := a) (p := 0) (q := -r) hl (fun i hi => by rw [hx i (h i hi)]; ring)]; ring
  have lin4 : ∀ l : List ℕ, l ≠ [] → (∀ i ∈ l, i ∈ P ∨ i ∈ Q ∨ i ∈ R) → mean (disp m z 4) l = b + r * mean (nx m) l := by
    intro l hl h
    rw [mean_lin (m := m) (f := disp m z 4) (c := b) (p := r) (q := 0) hl (fun i hi => by rw [hy i (h i hi)]; ring)]; ring
  have iP : ∀ i ∈ P, i ∈ P ∨ i ∈ Q ∨ i ∈ R := fun i hi => Or.inl hi
  have iQ : ∀ i ∈ Q, i ∈ P ∨ i ∈ Q ∨ i ∈ R := fun i hi => Or.inr (Or.inl hi)
  have iR : ∀ i ∈ R, i ∈ P ∨ i ∈ Q ∨ i ∈ R := fun i hi => Or.inr (Or.inr hi)
  have gPQ : gap m z P Q = (p + (a - r * mean (ny m) P)) * (mean (nx m) Q - mean (nx m) P) + (q + (b + r * mean (nx m) P)) * (mean (ny m) Q - mean (ny m) P) := by
    unfold gap
    rw [lin3 P hP iP, lin3 Q hQ iQ, lin4 P hP iP, lin4 Q hQ iQ, mean_lin hP (fun i hi => hw i (iP i hi)), mean_lin hQ (fun i hi => hw i (iQ i hi))]
    ring
  have gPR : gap m z P R = (p + (a - r * mean (ny m) P)) * (mean (nx m) R - mean (nx m) P) + (q + (b + r * mean (nx m) P)) * (mean (ny m) R - mean (ny m) P) := by
    unfold gap
    rw [lin3 P hP iP, lin3 R hR iR, lin4 P hP iP, lin4 R hR iR, mean_lin hP (fun i hi => hw i (iP i hi)), mean_lin hR (fun i hi => hw i (iR i hi))]
    ring
  simp only [dsg, Matrix.cons_val_zero, Matrix.cons_val_one, gPQ, gPR]
  rw [div_eq_iff (by simpa using hA), div_eq_iff (by simpa using hA), sarea3]
  constructor <;> ring

/-- without smoothing, origin at a corner -/
theorem wholeGamma_affine {m : Mesh} (hf : FlatMesh m) {e : ℕ} (he : e ∈ m.eids) {z : ℕ → ℝ} {c p q a b r : ℝ}
    (hw : ∀ i ∈ corners m e, disp m z 2 i = c + p * nx m i + q * ny m i)
    (hx : ∀ i ∈ corners m e, disp m z 3 i = a - r * ny m i) (hy : ∀ i ∈ corners m e, disp m z 4 i = b + r * nx m i) :
    wholeGamma m e z 0 = p + (a - r * ny m (cellNSOrient m e).1) ∧ wholeGamma m e z 1 = q + (b + r * nx m (cellNSOrient m e).1) := by
  have hc := cellNSOrient_ccw hf he
  rw [wholeGamma_ccw hf he]
  have hm : ∀ i, i ∈ [(cellNSOrient m e).1] ∨ i ∈ [(cellNSOrient m e).2.1] ∨ i ∈ [(cellNSOrient m e).2.2] → i ∈ corners m e := by
    intro i hi
    apply hc.perm.mem_iff.1
    simpa using hi
  have := dsg_affine (by simp) (by simp) (by simp) hc.pos.ne' (fun i hi => hw i (hm i hi)) (fun i hi => hx i (hm i hi)) (fun i hi => hy i (hm i hi))
  simpa only [mean_single] using this

/-- with smoothing, origin at the centroid -/
theorem cellGamma_affine {m : Mesh} (w : WF m) (hf : FlatMesh m) {e : ℕ} (he : e ∈ m.eids) {z : ℕ → ℝ} {c p q a' b' r : ℝ}
    (hw : ∀ i ∈ corners m e, disp m z 2 i = c + p * nx m i + q * ny m i)
    (hx : ∀ i ∈ corners m e, disp m z 3 i = a' - r * ny m i) (hy : ∀ i ∈ corners m e, disp m z 4 i = b' + r * nx m i) :
    cellGamma m e z 0 = p + (a' - r * mean (ny m) (corners m e)) ∧ cellGamma m e z 1 = q + (b' + r * mean (nx m) (corners m e)) := by
  have hc := cellOrient_ccw w hf he
  revert hc
  rcases cellOrient m e with ⟨a, b, d⟩
  intro hc
  dsimp only at hc
  have hpos : 0 < triArea m e := by rw [← hc.area]; exact hc.pos
  have ha : a ∈ corners m e := hc.perm.mem_iff.1 (by simp)
  have hb : b ∈ corners m e := hc.perm.mem_iff.1 (by simp)
  have hd : d ∈ corners m e := hc.perm.mem_iff.1 (by simp)
  have sub : ∀ i j, i ∈ corners m e → j ∈ corners m e → sarea m [corners m e, [i], [j]] = triArea m e / 3 →
      dsg m z (corners m e) [i] [j] 0 = p + (a' - r * mean (ny m) (corners m e)) ∧
      dsg m z (corners m e) [i] [j] 1 = q + (b' + r * mean (nx m) (corners m e)) := by
    intro i j hi hj hs
    have hm : ∀ l, l ∈ corners m e ∨ l ∈ [i] ∨ l ∈ [j] → l ∈ corners m e := by
      intro l hl
      rcases hl with h | h | h
      · exact h
      · rw [List.mem_singleton] at h; rw [h]; exact hi
      · rw [List.mem_singleton] at h; rw [h]; exact hj
    exact dsg_affine (by unfold corners; simp) (by simp) (by simp) (by rw [hs]; positivity) (fun i hi => hw i (hm i hi))
      (fun i hi => hx i (hm i hi)) (fun i hi => hy i (hm i hi))
  constructor
  · obtain ⟨h, s1, s2, s3⟩ := cellGamma_ccw hc z 0
    rw [h, (sub a b ha hb s1).1, (sub b d hb hd s2).1, (sub d a hd ha s3).1]; ring
  · obtain ⟨h, s1, s2, s3⟩ := cellGamma_ccw hc z 1
    rw [h, (sub a b ha hb s1).2, (sub b d hb hd s2).2, (sub d a hd ha s3).2]; ring

theorem rotSum_affine {m : Mesh} {e : ℕ} {z : ℕ → ℝ} {a b r : ℝ}
    (hx : ∀ i ∈ corners m e, disp m z 3 i = a - r * ny m i) (hy : ∀ i ∈ corners m e, disp m z 4 i = b + r * nx m i) :
    rotSum m e z 0 = 3 * (a - r * mean (ny m) (corners m e)) ∧ rotSum m e z 1 = 3 * (b + r * mean (nx m) (corners m e)) := by
  unfold rotSum mean corners at *
  simp only [List.map_cons, List.map_nil, List.sum_cons, List.sum_nil, List.length_cons, List.length_nil]
  constructor
  · change disp m z 3 _ + (disp m z 3 _ + (disp m z 3 _ + 0)) = _
    rw [hx _ (by simp), hx _ (by simp), hx _ (by simp)]
    push_cast; ring
  · change disp m z 4 _ + (disp m z 4 _ + (disp m z 4 _ + 0)) = _
    rw [hy _ (by simp), hy _ (by simp), hy _ (by simp)]
    push_cast; ring

theorem isCorner_mem {m : Mesh} {e i : ℕ} : IsCorner m e i ↔ i ∈ corners m e := by unfold IsCorner corners; simp

/-- A shear strain that is the gradient of the deflection plus `θ` times the rotations at an origin `(X e, Y e)` vanishes only if the
deflection has the gradient `-θ` times those rotations in every triangle. If the rotations are uniform the deflection is affine on the
whole plate. -/
theorem deflection_affine {m : Mesh} (w : WF m) (hp : Proper m) (ho : OnePiece m) {d : ℕ → ℝ} {p q θ : ℝ}
    (h : ∀ e ∈ m.eids, ∃ c, Aff m e (disp m d 2) c (-(θ * p)) (-(θ * q))) : ∃ s, ∀ i ∈ m.nids, disp m d 2 i = s - θ * (p * nx m i + q * ny m i) := by
  rcases hE : m.eids with _ | ⟨e0, l⟩
  · refine ⟨0, fun i hi => ?_⟩
    obtain ⟨e, he, _⟩ := ho.used i hi
    rw [hE] at he; simp at he
  have he0 : e0 ∈ m.eids := by rw [hE]; simp
  obtain ⟨c, h0⟩ := h e0 he0
  have hall : ∀ t, Relation.ReflTransGen (Adjacent m) e0 t → Aff m t (disp m d 2) c (-(θ * p)) (-(θ * q)) := by
    intro t ht
    induction ht with
    | refl => exact h0
    | tail _ hA ih =>
      obtain ⟨k, hk, k1, k2⟩ := hA
      obtain ⟨o, hs, _⟩ := side_of w hp.distinct hk k1
      obtain ⟨o', hs', _⟩ := side_of w hp.distinct hk k2
      obtain ⟨c', h'⟩ := h _ hs'.mem
      have e1 := (aff_values hs ih).1
      have e2 := (aff_values hs' h').1
      have : c' = c := by linarith
      exact this ▸ h'
  refine ⟨c, fun i hi => ?_⟩
  obtain ⟨e, he, hc⟩ := ho.used i hi
  rw [hall e (ho.walk e0 he0 e he) i hc]
  ring

/-- with more than one triangle there is an interior edge -/
theorem interior_exists {m : Mesh} (w : WF m) (hp : Proper m) (ho : OnePiece m) (h2 : 2 ≤ m.eids.length) :
    ∃ k ∈ m.ekeys, ∃ t1 t2, (m.edge k).trias = [t1, t2] := by
  by_contra hcon
  push Not at hcon
  have hsame : ∀ t t', Adjacent m t t' → t = t' := by
    rintro t t' ⟨k, hk, k1, k2⟩
    rcases edge_shape w hp hk with ⟨t0, o, htr, _, _⟩ | ⟨t1, t2, o1, o2, htr, _⟩
    · rw [htr] at k1 k2; simp only [List.mem_singleton] at k1 k2; rw [k1, k2]
    · exact absurd htr (hcon k hk t1 t2)
  have hwalk : ∀ t t', Relation.ReflTransGen (Adjacent m) t t' → t = t' := by
    intro t t' h
    induction h with
    | refl => rfl
    | tail _ hA ih => rw [ih]; exact hsame _ _ hA
  rcases hE : m.eids with _ | ⟨a, _ | ⟨b, l⟩⟩
  · rw [hE] at h2; simp at h2
  · rw [hE] at h2; simp at h2
  · have hnd := w.eids_nodup
    rw [hE] at hnd
    have hab : a ≠ b := by
      intro hab; rw [hab] at hnd; simp at hnd
    exact hab (hwalk a b (ho.walk a (by rw [hE]; simp) b (by rw [hE]; simp)))

/-- with the origin at the centroid, shear-free rotations are uniform as soon as there are two triangles -/
theorem no_twist {m : Mesh} (w : WF m) (hp : Proper m) (hg : Planar m) (ho : OnePiece m) (h2 : 2 ≤ m.eids.length) {d : ℕ → ℝ} {p q r θ : ℝ} (hθ : θ ≠ 0)
    (h : ∀ e ∈ m.eids, ∃ c, Aff m e (disp m d 2) c (-(θ * (p - r * mean (ny m) (corners m e)))) (-(θ * (q + r * mean (nx m) (corners m e))))) : r = 0 := by
  obtain ⟨k, hk, t1, t2, htr⟩ := interior_exists w hp ho h2
  obtain ⟨o1, hs1, _⟩ := side_of w hp.distinct hk (t := t1) (by rw [htr]; simp)
  obtain ⟨o2, hs2, _⟩ := side_of w hp.distinct hk (t := t2) (by rw [htr]; simp)
  obtain ⟨c1, h1⟩ := h t1 hs1.mem
  obtain ⟨c2, h2'⟩ := h t2 hs2.mem
  obtain ⟨a1, a2, _⟩ := aff_values hs1 h1
  obtain ⟨b1, b2, _⟩ := aff_values hs2 h2'
  rw [mean_corners hs1, mean_corners hs1] at a1 a2
  rw [mean_corners hs2, mean_corners hs2] at b1 b2
  have hop := cr_opposite hg hk htr hs1 hs2
  have hne : cr m k.1 k.2 o2 - cr m k.1 k.2 o1 ≠ 0 := by
    intro h; rw [sub_eq_zero.1 h] at hop; exact absurd hop (not_lt.2 (mul_self_nonneg _))
  have hz : θ * r * (cr m k.1 k.2 o2 - cr m k.1 k.2 o1) = 0 := by
    have : θ * r * (cr m k.1 k.2 o2 - cr m k.1 k.2 o1) = 3 *
      (((c2 + -(θ * (p - r * ((ny m k.1 + ny m k.2 + ny m o2) / 3))) * nx m k.2 + -(θ * (q + r * ((nx m k.1 + nx m k.2 + nx m o2) / 3))) * ny m k.2) -
        (c2 + -(θ * (p - r * ((ny m k.1 + ny m k.2 + ny m o2) / 3))) * nx m k.1 + -(θ * (q + r * ((nx m k.1 + nx m k.2 + nx m o2) / 3))) * ny m k.1)) -
      ((c1 + -(θ * (p - r * ((ny m k.1 + ny m k.2 + ny m o1) / 3))) * nx m k.2 + -(θ * (q + r * ((nx m k.1 + nx m k.2 + nx m o1) / 3))) * ny m k.2) -
        (c1 + -(θ * (p - r * ((ny m k.1 + ny m k.2 + ny m o1) / 3))) * nx m k.1 + -(θ * (q + r * ((nx m k.1 + nx m k.2 + nx m o1) / 3))) * ny m k.1))) := by
      unfold cr; ring
    rw [this, ← a1, ← a2, ← b1, ← b2]; ring
  rcases mul_eq_zero.1 hz with h | h
  · exact (mul_eq_zero.1 h).resolve_left hθ
  · exact absurd h hne

end Meshless
