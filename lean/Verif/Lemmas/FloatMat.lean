import Verif.Lemmas.FloatAcc
import Verif.Lemmas.Mat

/-! Lists of increments and matrices computed with rounding. -/

set_option autoImplicit false

namespace Meshless
open Filter Topology

variable {ι : Type*} {π : ι → Rounding}

/-- computed increments: the same positions, accurate values -/
def AccL (π : ι → Rounding) (es : ∀ i, List (ℤ × ℤ × Fl (π i))) (es0 : List (ℤ × ℤ × ℝ)) : Prop :=
  ∃ L : List (ℤ × ℤ × (ι → ℝ)), (∀ᶠ i in smallU π, es i = L.map fun t => (t.1, t.2.1, (t.2.2 i : Fl (π i)))) ∧
    List.Forall₂ (fun x y => x.1 = y.1 ∧ x.2.1 = y.2.1 ∧ Acc π x.2.2 y.2.2) L es0

/-- a computed matrix: the same size, accurate values -/
structure AccMat (π : ι → Rounding) (M : ι → Mat) (M0 : Mat) : Prop where
  dim : ∀ᶠ i in smallU π, (M i).dim = M0.dim
  get : ∀ r c, Acc π (fun i => (M i).get r c) (M0.get r c)

theorem AccMat.const (M : Mat) : AccMat π (fun _ => M) M := ⟨Eventually.of_forall fun _ => rfl, fun _ _ => Acc.const _⟩

theorem AccMat.congr {M N : ι → Mat} {M0 : Mat} (h : AccMat π M M0) (he : ∀ᶠ i in smallU π, N i = M i) : AccMat π N M0 :=
  ⟨by filter_upwards [h.dim, he] with i h1 h2; rw [h2, h1], fun r c => (h.get r c).congr (he.mono fun i hi => by rw [hi])⟩

theorem eventually_lt_one (C : ℝ) : ∀ᶠ i in smallU π, C * (π i).u < 1 := by
  have h2 : Tendsto (fun i => C * (π i).u) (smallU π) (𝓝 (C * 0)) := tendsto_u.const_mul C
  rw [mul_zero] at h2
  exact h2.eventually (gt_mem_nhds one_pos)

theorem Acc.bound {a : ι → ℝ} {l : ℝ} (h : Acc π a l) : ∀ᶠ C in atTop, ∀ᶠ i in smallU π, |a i - l| ≤ C * (π i).u := by
  obtain ⟨C0, u0, h0, hb⟩ := acc_iff.1 h
  filter_upwards [eventually_ge_atTop C0] with C hC
  rw [smallU_iff]
  exact ⟨u0, h0, fun i hi => (hb i hi).trans (mul_le_mul_of_nonneg_right hC (π i).u_nonneg)⟩

theorem roundOK_small : ∀ᶠ C : ℝ in atTop, 0 ≤ C ∧ ∀ᶠ i in smallU π, RoundOK (π i) (C * (π i).u) := by
  filter_upwards [eventually_ge_atTop 1] with C hC
  refine ⟨by linarith, ?_⟩
  filter_upwards [eventually_lt_one C] with i hi
  exact ⟨by nlinarith [(π i).u_nonneg], hi⟩

theorem Acc.near {a : ι → ℝ} {l : ℝ} (h : Acc π a l) : ∀ᶠ C : ℝ in atTop, ∀ᶠ i in smallU π, Near (C * (π i).u) 1 1 (a i) l := by
  filter_upwards [h.bound, roundOK_small (π := π)] with C h1 h2
  filter_upwards [h1, h2.2] with i hi ok
  have h0 : 0 ≤ C * (π i).u := mul_nonneg h2.1 (π i).u_nonneg
  have hg := le_gam_one h0 ok.lt
  unfold Near
  nlinarith [abs_nonneg l]

theorem Acc.relNear {a : ι → ℝ} {l : ℝ} (h : Acc π a l) (hl : l ≠ 0) : ∀ᶠ C : ℝ in atTop, ∀ᶠ i in smallU π, RelNear (C * (π i).u) 1 (a i) l := by
  have h' : Acc π (fun i => a i / l) (l / l) := h.div' (Acc.const l) hl
  rw [div_self hl] at h'
  filter_upwards [h'.bound, roundOK_small (π := π)] with C h1 h2
  filter_upwards [h1, h2.2] with i hi ok
  have h0 : 0 ≤ C * (π i).u := mul_nonneg h2.1 (π i).u_nonneg
  have hg := le_gam_one h0 ok.lt
  unfold gam at hg
  have := abs_le.1 hi
  refine ⟨hl, a i / l, by field_simp, ?_, ?_⟩
  · rw [pow_one]; linarith
  · linarith

/-- certified increments are accurate -/
theorem accL_of_cert {C : ℝ} (hC : 0 ≤ C) {kmax : ℕ} {es : ∀ i, List (ℤ × ℤ × Fl (π i))} {es0 : List (ℤ × ℤ × ℝ)} {mg : List (ℤ × ℤ × Mag)}
    (h : ∀ᶠ i in smallU π, ∃ L : List (ℤ × ℤ × Cert (π i) (C * (π i).u)), L.map (fun t => (t.1, t.2.1, (t.2.2.c : Fl (π i)))) = es i ∧
      L.map (fun t => (t.1, t.2.1, t.2.2.e)) = es0 ∧ L.map (fun t => (t.1, t.2.1, (t.2.2.M : Mag))) = mg ∧
      ∀ t ∈ L, t.2.2.ok = true ∧ t.2.2.k ≤ kmax) : AccL π es es0 := by
  have hu : ∀ᶠ i in smallU π, 2 * kmax * (C * (π i).u) ≤ 1 ∧ C * (π i).u < 1 := by
    have h1 : Tendsto (fun i => 2 * kmax * (C * (π i).u)) (smallU π) (𝓝 (2 * kmax * (C * 0))) := (tendsto_u.const_mul C).const_mul _
    have h2 : Tendsto (fun i => C * (π i).u) (smallU π) (𝓝 (C * 0)) := tendsto_u.const_mul C
    simp only [mul_zero] at h1 h2
    filter_upwards [h1.eventually (gt_mem_nhds one_pos), h2.eventually (gt_mem_nhds one_pos)] with i a b
    exact ⟨a.le, b⟩
  have key : ∀ᶠ i in smallU π, (es i).length = es0.length ∧ mg.length = es0.length ∧ ∀ (n : ℕ) x y (z : ℤ × ℤ × Mag), (es i)[n]? = some x →
      es0[n]? = some y → mg[n]? = some z → x.1 = y.1 ∧ x.2.1 = y.2.1 ∧
      |(show ℝ from x.2.2) - y.2.2| ≤ 2 * kmax * (C * (π i).u) * (show ℝ from z.2.2) := by
    filter_upwards [h, hu] with i ⟨L, h1, h2, h3, h4⟩ hu
    rw [← h1, ← h2, ← h3]
    refine ⟨by simp, by simp, fun n x y z hx hy hz => ?_⟩
    rw [List.getElem?_map] at hx hy hz
    rcases hL : L[n]? with _ | t
    · rw [hL] at hx; simp at hx
    rw [hL] at hx hy hz
    obtain rfl := Option.some.inj hx
    obtain rfl := Option.some.inj hy
    obtain rfl := Option.some.inj hz
    obtain ⟨ok, hk⟩ := h4 t (List.mem_of_getElem? hL)
    refine ⟨rfl, rfl, (t.2.2.h ok).2.trans ?_⟩
    refine mul_le_mul_of_nonneg_right ?_ t.2.2.hM
    have h0 : 0 ≤ C * (π i).u := mul_nonneg hC (π i).u_nonneg
    exact (gam_mono h0 hu.2 hk).trans (gam_le h0 hu.1 hu.2)
  refine ⟨es0.mapIdx fun n t => (t.1, t.2.1, fun i => match (es i)[n]? with | some x => (show ℝ from x.2.2) | none => 0), ?_, ?_⟩
  · filter_upwards [key] with i ⟨hl, hm, hk⟩
    apply List.ext_getElem
    · simp [hl]
    · intro n h1 h2
      simp only [List.getElem_map, List.getElem_mapIdx]
      have h1' := h1
      rw [hl] at h1'
      obtain ⟨k1, k2, _⟩ := hk n _ _ _ (List.getElem?_eq_getElem h1) (List.getElem?_eq_getElem h1') (List.getElem?_eq_getElem (by omega))
      rw [List.getElem?_eq_getElem h1]
      exact Prod.ext k1 (Prod.ext k2 rfl)
  · rw [List.forall₂_iff_get]
    refine ⟨by simp, fun n h1 h2 => ?_⟩
    simp only [List.get_eq_getElem, List.getElem_mapIdx]
    refine ⟨trivial, trivial, ?_⟩
    by_cases hm : n < mg.length
    · have : (fun i => (match (es i)[n]? with | some x => (show ℝ from x.2.2) | none => 0) - (es0[n]).2.2) =O[smallU π] fun i => (π i).u := by
        refine Asymptotics.IsBigO.of_bound (2 * kmax * C * (show ℝ from (mg[n]).2.2)) ?_
        filter_upwards [key] with i ⟨hl, _, hk⟩
        obtain ⟨_, _, k3⟩ := hk n _ _ _ (List.getElem?_eq_getElem (by omega)) (List.getElem?_eq_getElem h2) (List.getElem?_eq_getElem hm)
        rw [List.getElem?_eq_getElem (by omega)]
        rw [Real.norm_eq_abs, Real.norm_eq_abs, abs_of_nonneg (π i).u_nonneg]
        refine k3.trans (le_of_eq ?_)
        ring
      exact this
    · have hf : ∀ᶠ i in smallU π, False := by
        filter_upwards [key] with i ⟨_, hm', _⟩
        exact hm (by omega)
      exact (Acc.const _).congr (hf.mono fun i hi => hi.elim)

theorem addAll_acc (L : List (ℤ × ℤ × (ι → ℝ))) : ∀ (es0 : List (ℤ × ℤ × ℝ)), List.Forall₂ (fun x y => x.1 = y.1 ∧ x.2.1 = y.2.1 ∧ Acc π x.2.2 y.2.2) L es0 →
    ∀ {M : ι → Mat} {M0 : Mat}, AccMat π M M0 → (M0.addAll es0).2 = none →
    (∀ᶠ i in smallU π, ((π i).addAll (M i) (L.map fun t => (t.1, t.2.1, (t.2.2 i : Fl (π i))))).2 = none) ∧
    AccMat π (fun i => ((π i).addAll (M i) (L.map fun t => (t.1, t.2.1, (t.2.2 i : Fl (π i))))).1) (M0.addAll es0).1 := by
  induction L with
  | nil =>
    intro es0 h M M0 hM _
    cases h
    exact ⟨Eventually.of_forall fun _ => rfl, hM⟩
  | cons a L ih =>
    intro es0 h M M0 hM h0
    obtain ⟨r, c, v⟩ := a
    cases h with
    | @cons _ y _ es0 hxy ht =>
    obtain ⟨r', c', v0⟩ := y
    obtain ⟨e1, e2, hv⟩ := hxy
    dsimp only at e1 e2 hv
    subst e1 e2
    simp only [List.map_cons, Rounding.addAll, Mat.addAll, Rounding.addAt, Mat.addAt] at h0 ⊢
    rcases hr : pyIdx M0.dim r with _ | x
    · rw [hr] at h0; simp at h0
    rcases hc : pyIdx M0.dim c with _ | y
    · rw [hr, hc] at h0; simp at h0
    rw [hr, hc] at h0
    dsimp only at h0 ⊢
    have hM1 : AccMat π (fun i => (π i).bump (M i) x y (v i)) (M0.bump x y v0) := by
      refine ⟨hM.dim, fun p q => ?_⟩
      simp only [Rounding.bump, Mat.bump]
      split
      · exact (hM.get p q).add hv
      · exact hM.get p q
    obtain ⟨i1, i2⟩ := ih es0 ht hM1 h0
    refine ⟨?_, i2.congr ?_⟩
    · filter_upwards [i1, hM.dim] with i h1 hd
      rw [hd, hr, hc]; exact h1
    · filter_upwards [hM.dim] with i hd
      rw [hd, hr, hc]

/-- one loop step with accurate increments -/
theorem accL_addAll {es : ∀ i, List (ℤ × ℤ × Fl (π i))} {es0 : List (ℤ × ℤ × ℝ)} (h : AccL π es es0) {M : ι → Mat} {M0 : Mat} (hM : AccMat π M M0)
    (h0 : (M0.addAll es0).2 = none) : (∀ᶠ i in smallU π, ((π i).addAll (M i) (es i)).2 = none) ∧
    AccMat π (fun i => ((π i).addAll (M i) (es i)).1) (M0.addAll es0).1 := by
  obtain ⟨L, h1, h2⟩ := h
  obtain ⟨i1, i2⟩ := addAll_acc L es0 h2 hM h0
  refine ⟨?_, i2.congr ?_⟩
  · filter_upwards [h1, i1] with i a b
    rw [a]; exact b
  · filter_upwards [h1] with i a
    rw [a]

theorem matLoop_acc {α : Type} {f : ι → Mat → α → Mat × Option Err} {g : Mat → α → Mat × Option Err} : ∀ (l : List α) {M : ι → Mat} {M0 : Mat},
    AccMat π M M0 → (∀ k ∈ l, ∀ {N : ι → Mat} {N0 : Mat}, AccMat π N N0 → (g N0 k).2 = none →
      (∀ᶠ i in smallU π, (f i (N i) k).2 = none) ∧ AccMat π (fun i => (f i (N i) k).1) (g N0 k).1) → (matLoop g M0 l).2 = none →
    (∀ᶠ i in smallU π, (matLoop (f i) (M i) l).2 = none) ∧ AccMat π (fun i => (matLoop (f i) (M i) l).1) (matLoop g M0 l).1 := by
  intro l
  induction l with
  | nil => intro M M0 hM _ _; exact ⟨Eventually.of_forall fun _ => rfl, hM⟩
  | cons k l ih =>
    intro M M0 hM hf h0
    simp only [matLoop] at h0 ⊢
    rcases hg : g M0 k with ⟨N0, _ | e⟩
    · rw [hg] at h0
      dsimp only at h0 ⊢
      obtain ⟨h1, h2⟩ := hf k (by simp) hM (by rw [hg])
      rw [hg] at h2
      obtain ⟨i1, i2⟩ := ih h2 (fun k' hk' => hf k' (List.mem_cons_of_mem _ hk')) h0
      refine ⟨?_, i2.congr ?_⟩
      · filter_upwards [h1, i1] with i a b
        rcases hx : f i (M i) k with ⟨N, _ | e⟩
        · rw [hx] at b; exact b
        · rw [hx] at a; simp at a
      · filter_upwards [h1] with i a
        rcases hx : f i (M i) k with ⟨N, _ | e⟩
        · rfl
        · rw [hx] at a; simp at a
    · rw [hg] at h0; simp at h0

end Meshless
