import Verif.Lemmas.IeeeLim
import Verif.Lemmas.Mat

/-! Matrices computed in floating-point formats with special values. -/

set_option autoImplicit false

namespace Meshless
open Filter Topology

variable {ι : Type*} {φ : ι → Fmt}

/-- a computed matrix: the same size, and the exact entries as limits -/
structure LimMat (φ : ι → Fmt) (M : ι → FMat) (M0 : Mat) : Prop where
  dim : ∀ᶠ i in good φ, (M i).dim = M0.dim
  get : ∀ r c, Lim φ (fun i => (M i).get r c) (M0.get r c)

theorem LimMat.zeros (n : ℕ) : LimMat φ (fun _ => FMat.zeros n) (Mat.zeros n) := ⟨Eventually.of_forall fun _ => rfl, fun _ _ => Lim.const _⟩

theorem LimMat.congr {M N : ι → FMat} {M0 : Mat} (h : LimMat φ M M0) (he : ∀ᶠ i in good φ, N i = M i) : LimMat φ N M0 :=
  ⟨by filter_upwards [h.dim, he] with i h1 h2; rw [h2, h1], fun r c => (h.get r c).congr (he.mono fun i hi => by rw [hi])⟩

theorem addAll_lim (L : List (ℤ × ℤ × (ι → Flo))) : ∀ (es0 : List (ℤ × ℤ × ℝ)), List.Forall₂ (fun x y => x.1 = y.1 ∧ x.2.1 = y.2.1 ∧ Lim φ x.2.2 y.2.2) L es0 →
    ∀ {M : ι → FMat} {M0 : Mat}, LimMat φ M M0 → (M0.addAll es0).2 = none →
    (∀ᶠ i in good φ, ((φ i).addAll (M i) (L.map fun t => (t.1, t.2.1, (t.2.2 i : Fo (φ i))))).2 = none) ∧
    LimMat φ (fun i => ((φ i).addAll (M i) (L.map fun t => (t.1, t.2.1, (t.2.2 i : Fo (φ i))))).1) (M0.addAll es0).1 := by
  induction L with
  | nil =>
    intro es0 h M M0 hM _
    cases h
    exact ⟨Eventually.of_forall fun _ => rfl, hM⟩
  | cons a L ih =>
    intro es0 h M M0 hM h0
    obtain ⟨r, c, v⟩ := a
    cases h with
    | @cons _ y _ es0 hxy ht =>
    obtain ⟨r', c', v0⟩ := y
    obtain ⟨e1, e2, hv⟩ := hxy
    dsimp only at e1 e2 hv
    subst e1 e2
    simp only [List.map_cons, Fmt.addAll, Mat.addAll, Fmt.addAt, Mat.addAt] at h0 ⊢
    rcases hr : pyIdx M0.dim r with _ | x
    · rw [hr] at h0; simp at h0
    rcases hc : pyIdx M0.dim c with _ | y
    · rw [hr, hc] at h0; simp at h0
    rw [hr, hc] at h0
    dsimp only at h0 ⊢
    have hM1 : LimMat φ (fun i => (φ i).bump (M i) x y (v i)) (M0.bump x y v0) := by
      refine ⟨hM.dim, fun p q => ?_⟩
      simp only [Fmt.bump, Mat.bump]
      split
      · exact (hM.get p q).add hv
      · exact hM.get p q
    obtain ⟨i1, i2⟩ := ih es0 ht hM1 h0
    refine ⟨?_, i2.congr ?_⟩
    · filter_upwards [i1, hM.dim] with i h1 hd
      rw [hd, hr, hc]; exact h1
    · filter_upwards [hM.dim] with i hd
      rw [hd, hr, hc]

/-- one loop step -/
theorem limL_addAll {es : ∀ i, List (ℤ × ℤ × Fo (φ i))} {es0 : List (ℤ × ℤ × ℝ)} (h : LimL φ es es0) {M : ι → FMat} {M0 : Mat} (hM : LimMat φ M M0)
    (h0 : (M0.addAll es0).2 = none) : (∀ᶠ i in good φ, ((φ i).addAll (M i) (es i)).2 = none) ∧
    LimMat φ (fun i => ((φ i).addAll (M i) (es i)).1) (M0.addAll es0).1 := by
  obtain ⟨L, h1, h2⟩ := h
  simp only [h1]
  exact addAll_lim L es0 h2 hM h0

/-- a loop step that computes its increments, once the roundoff is small -/
theorem step_lim {es : ∀ i, List (ℤ × ℤ × Fo (φ i))} {es0 : List (ℤ × ℤ × ℝ)} (h : LimL φ es es0) {M : ι → FMat} {M0 : Mat} (hM : LimMat φ M M0)
    {F : ι → FMat × Option Err} {F0 : Mat × Option Err} (hF : ∀ᶠ i in good φ, F i = (φ i).addAll (M i) (es i)) (hF0 : F0 = M0.addAll es0)
    (h0 : F0.2 = none) : (∀ᶠ i in good φ, (F i).2 = none) ∧ LimMat φ (fun i => (F i).1) F0.1 := by
  subst hF0
  obtain ⟨a, b⟩ := limL_addAll h hM h0
  refine ⟨by filter_upwards [hF, a] with i x y; rw [x]; exact y, b.congr (hF.mono fun i hi => by rw [hi])⟩

theorem loop_lim {α : Type} {f : ι → FMat → α → FMat × Option Err} {g : Mat → α → Mat × Option Err} : ∀ (l : List α) {M : ι → FMat} {M0 : Mat},
    LimMat φ M M0 → (∀ k ∈ l, ∀ {N : ι → FMat} {N0 : Mat}, LimMat φ N N0 → (g N0 k).2 = none →
      (∀ᶠ i in good φ, (f i (N i) k).2 = none) ∧ LimMat φ (fun i => (f i (N i) k).1) (g N0 k).1) → (matLoop g M0 l).2 = none →
    (∀ᶠ i in good φ, (Fmt.loop (f i) (M i) l).2 = none) ∧ LimMat φ (fun i => (Fmt.loop (f i) (M i) l).1) (matLoop g M0 l).1 := by
  intro l
  induction l with
  | nil => intro M M0 hM _ _; exact ⟨Eventually.of_forall fun _ => rfl, hM⟩
  | cons k l ih =>
    intro M M0 hM hf h0
    simp only [matLoop, Fmt.loop] at h0 ⊢
    rcases hg : g M0 k with ⟨N0, _ | e⟩
    · rw [hg] at h0
      dsimp only at h0 ⊢
      obtain ⟨h1, h2⟩ := hf k (by simp) hM (by rw [hg])
      rw [hg] at h2
      obtain ⟨i1, i2⟩ := ih h2 (fun k' hk' => hf k' (List.mem_cons_of_mem _ hk')) h0
      refine ⟨?_, i2.congr ?_⟩
      · filter_upwards [h1, i1] with i a b
        rcases hx : f i (M i) k with ⟨N, _ | e⟩
        · rw [hx] at b; exact b
        · rw [hx] at a; simp at a
      · filter_upwards [h1] with i a
        rcases hx : f i (M i) k with ⟨N, _ | e⟩
        · rfl
        · rw [hx] at a; simp at a
    · rw [hg] at h0; simp at h0

end Meshless
