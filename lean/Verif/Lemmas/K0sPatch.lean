import Verif.Lemmas.K0sForm

/-! Discrete shear gap strains of linear fields; invariance under the order of the corners; positions of the entries. -/

set_option autoImplicit false

namespace Meshless
open Spec Finset

theorem mean_lin {m : Mesh} {f : ℕ → ℝ} {c p q : ℝ} {l : List ℕ} (hl : l ≠ []) (h : ∀ i ∈ l, f i = c + p * nx m i + q * ny m i) :
    mean f l = c + p * mean (nx m) l + q * mean (ny m) l := by
  have hlen : (l.length : ℝ) ≠ 0 := by
    have := List.length_pos_iff.2 hl
    exact_mod_cast this.ne'
  have hs : (l.map f).sum = l.length * c + p * (l.map (nx m)).sum + q * (l.map (ny m)).sum := by
    clear hl hlen
    induction l with
    | nil => simp
    | cons a l ih =>
      simp only [List.map_cons, List.sum_cons, List.length_cons]
      rw [ih (fun i hi => h i (by simp [hi])), h a (by simp)]
      push_cast; ring
  unfold mean
  rw [hs]
  field_simp

/-- the shear gap strain of `w = c + p x + q y` with uniform rotations `(r, s)` is `(p + r, q + s)`, whatever the triangle -/
theorem dsg_linear {m : Mesh} {z : ℕ → ℝ} {c p q r s : ℝ} {P Q R : List ℕ} (hP : P ≠ []) (hQ : Q ≠ []) (hR : R ≠ []) (hA : sarea m [P, Q, R] ≠ 0)
    (hw : ∀ i, i ∈ P ∨ i ∈ Q ∨ i ∈ R → disp m z 2 i = c + p * nx m i + q * ny m i)
    (hx : ∀ i, i ∈ P ∨ i ∈ Q ∨ i ∈ R → disp m z 3 i = r) (hy : ∀ i, i ∈ P ∨ i ∈ Q ∨ i ∈ R → disp m z 4 i = s) :
    dsg m z P Q R 0 = p + r ∧ dsg m z P Q R 1 = q + s := by
  have lin3 : ∀ l : List ℕ, l ≠ [] → (∀ i ∈ l, i ∈ P ∨ i ∈ Q ∨ i ∈ R) → mean (disp m z 3) l = r := by
    intro l hl h
    have := mean_lin (m := m) (f := disp m z 3) (c := r) (p := 0) (q := 0) hl (fun i hi => by rw [hx i (h i hi)]; ring)
    rw [this]; ring
  have lin4 : ∀ l : List ℕ, l ≠ [] → (∀ i ∈ l, i ∈ P ∨ i ∈ Q ∨ i ∈ R) → mean (disp m z 4) l = s := by
    intro l hl h
    have := mean_lin (m := m) (f := disp m z 4) (c := s) (p := 0) (q := 0) hl (fun i hi => by rw [hy i (h i hi)]; ring)
    rw [this]; ring
  have iP : ∀ i ∈ P, i ∈ P ∨ i ∈ Q ∨ i ∈ R := fun i hi => Or.inl hi
  have iQ : ∀ i ∈ Q, i ∈ P ∨ i ∈ Q ∨ i ∈ R := fun i hi => Or.inr (Or.inl hi)
  have iR : ∀ i ∈ R, i ∈ P ∨ i ∈ Q ∨ i ∈ R := fun i hi => Or.inr (Or.inr hi)
  have gPQ : gap m z P Q = (p + r) * (mean (nx m) Q - mean (nx m) P) + (q + s) * (mean (ny m) Q - mean (ny m) P) := by
    unfold gap
    rw [lin3 P hP iP, lin3 Q hQ iQ, lin4 P hP iP, lin4 Q hQ iQ, mean_lin hP (fun i hi => hw i (iP i hi)), mean_lin hQ (fun i hi => hw i (iQ i hi))]
    ring
  have gPR : gap m z P R = (p + r) * (mean (nx m) R - mean (nx m) P) + (q + s) * (mean (ny m) R - mean (ny m) P) := by
    unfold gap
    rw [lin3 P hP iP, lin3 R hR iR, lin4 P hP iP, lin4 R hR iR, mean_lin hP (fun i hi => hw i (iP i hi)), mean_lin hR (fun i hi => hw i (iR i hi))]
    ring
  simp only [dsg, Matrix.cons_val_zero, Matrix.cons_val_one, gPQ, gPR]
  rw [div_eq_iff (by simpa using hA), div_eq_iff (by simpa using hA), sarea3]
  constructor <;> ring

theorem wholeGamma_linear {m : Mesh} (hf : FlatMesh m) {e : ℕ} (he : e ∈ m.eids) {z : ℕ → ℝ} {c p q r s : ℝ}
    (hw : ∀ i ∈ corners m e, disp m z 2 i = c + p * nx m i + q * ny m i)
    (hx : ∀ i ∈ corners m e, disp m z 3 i = r) (hy : ∀ i ∈ corners m e, disp m z 4 i = s) :
    wholeGamma m e z 0 = p + r ∧ wholeGamma m e z 1 = q + s := by
  have hc := cellNSOrient_ccw hf he
  rw [wholeGamma_ccw hf he]
  have hm : ∀ i, i ∈ [(cellNSOrient m e).1] ∨ i ∈ [(cellNSOrient m e).2.1] ∨ i ∈ [(cellNSOrient m e).2.2] → i ∈ corners m e := by
    intro i hi
    apply hc.perm.mem_iff.1
    simpa using hi
  exact dsg_linear (by simp) (by simp) (by simp) hc.pos.ne' (fun i hi => hw i (hm i hi)) (fun i hi => hx i (hm i hi)) (fun i hi => hy i (hm i hi))

theorem cellGamma_linear {m : Mesh} (w : WF m) (hf : FlatMesh m) {e : ℕ} (he : e ∈ m.eids) {z : ℕ → ℝ} {c p q r s : ℝ}
    (hw : ∀ i ∈ corners m e, disp m z 2 i = c + p * nx m i + q * ny m i)
    (hx : ∀ i ∈ corners m e, disp m z 3 i = r) (hy : ∀ i ∈ corners m e, disp m z 4 i = s) :
    cellGamma m e z 0 = p + r ∧ cellGamma m e z 1 = q + s := by
  have hc := cellOrient_ccw w hf he
  revert hc
  rcases cellOrient m e with ⟨a, b, d⟩
  intro hc
  dsimp only at hc
  have hpos : 0 < triArea m e := by rw [← hc.area]; exact hc.pos
  have ha : a ∈ corners m e := hc.perm.mem_iff.1 (by simp)
  have hb : b ∈ corners m e := hc.perm.mem_iff.1 (by simp)
  have hd : d ∈ corners m e := hc.perm.mem_iff.1 (by simp)
  have sub : ∀ i j, i ∈ corners m e → j ∈ corners m e → sarea m [corners m e, [i], [j]] = triArea m e / 3 →
      dsg m z (corners m e) [i] [j] 0 = p + r ∧ dsg m z (corners m e) [i] [j] 1 = q + s := by
    intro i j hi hj hs
    have hm : ∀ l, l ∈ corners m e ∨ l ∈ [i] ∨ l ∈ [j] → l ∈ corners m e := by
      intro l hl
      rcases hl with h | h | h
      · exact h
      · rw [List.mem_singleton] at h; rw [h]; exact hi
      · rw [List.mem_singleton] at h; rw [h]; exact hj
    exact dsg_linear (by unfold corners; simp) (by simp) (by simp) (by rw [hs]; positivity) (fun i hi => hw i (hm i hi))
      (fun i hi => hx i (hm i hi)) (fun i hi => hy i (hm i hi))
  constructor
  · obtain ⟨h, s1, s2, s3⟩ := cellGamma_ccw hc z 0
    rw [h, (sub a b ha hb s1).1, (sub b d hb hd s2).1, (sub d a hd ha s3).1]; ring
  · obtain ⟨h, s1, s2, s3⟩ := cellGamma_ccw hc z 1
    rw [h, (sub a b ha hb s1).2, (sub b d hb hd s2).2, (sub d a hd ha s3).2]; ring

theorem rotSum_const {m : Mesh} {e : ℕ} {z : ℕ → ℝ} {k : Fin 2} {r : ℝ} (h : ∀ i ∈ corners m e, disp m z (3 + k.val) i = r) : rotSum m e z k = 3 * r := by
  unfold rotSum corners at *
  simp only [List.map_cons, List.map_nil, List.sum_cons, List.sum_nil]
  rw [h _ (by simp), h _ (by simp), h _ (by simp)]
  ring

/-! ### positions -/

/-- positions of a list of increments -/
def poss (es : List (ℤ × ℤ × ℝ)) : List (ℤ × ℤ) := es.map fun x => (x.1, x.2.1)

/-- positions given by a list of degrees of freedom -/
def sq (ds : List ℤ) : List (ℤ × ℤ) := ds.flatMap fun p => ds.map fun q => (p, q)

/-- the shear degrees of freedom of a list of node indices -/
def sdofs (is : List ℤ) : List ℤ := is.flatMap fun i => [i * 5 + 2, i * 5 + 3, i * 5 + 4]

theorem mem_sq {ds : List ℤ} {x : ℤ × ℤ} (h : x ∈ sq ds) : x.1 ∈ ds ∧ x.2 ∈ ds := by
  obtain ⟨p, hp, hx⟩ := List.mem_flatMap.1 h
  obtain ⟨q, hq, rfl⟩ := List.mem_map.1 hx
  exact ⟨hp, hq⟩

theorem mem_sdofs {is : List ℤ} {x : ℤ} (h : x ∈ sdofs is) : ∃ i ∈ is, ∃ r : ℕ, (r = 2 ∨ r = 3 ∨ r = 4) ∧ x = i * 5 + r := by
  obtain ⟨i, hi, hx⟩ := List.mem_flatMap.1 h
  simp only [List.mem_cons, List.not_mem_nil, or_false] at hx
  rcases hx with rfl | rfl | rfl
  · exact ⟨i, hi, 2, by simp, by simp⟩
  · exact ⟨i, hi, 3, by simp, by simp⟩
  · exact ⟨i, hi, 4, by simp, by simp⟩

theorem poss_cellS (env : CellSEnv ℝ) : poss (cellSEntries env) = sq (sdofs [env.i1, env.i2, env.i3]) := rfl
theorem poss_cellNS (env : CellNSEnv ℝ) : poss (cellNSEntries env) = sq (sdofs [env.i1, env.i2, env.i3]) := rfl
theorem poss_edgeB (env : EdgeBEnv ℝ) : poss (edgeBEntries env) = sq (sdofs [env.i1, env.i2, env.i3]) := rfl
set_option maxRecDepth 4000 in
theorem poss_edgeI (env : EdgeIEnv ℝ) : poss (edgeIEntries env) = sq (sdofs [env.i1, env.i2, env.i3, env.i4]) := rfl

end Meshless
