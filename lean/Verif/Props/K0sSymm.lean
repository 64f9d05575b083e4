import Verif.Props.K0sEdge

/-! Size of the asymmetry of the edge-based shear stiffness. -/

set_option autoImplicit false

namespace Meshless
open Spec Finset

private theorem lits : |sqErr| ≤ 1 / 10 ^ 16 ∧ |prodErr| ≤ 1 / 10 ^ 16 ∧ |quarterErr| ≤ 1 / 10 ^ 16 := by
  unfold sqErr prodErr quarterErr
  refine ⟨?_, ?_, ?_⟩ <;> rw [abs_le] <;> constructor <;> norm_num

private theorem mul_le {a b A B : ℝ} (ha : |a| ≤ A) (hb : |b| ≤ B) : |a * b| ≤ A * B := by
  rw [abs_mul]; exact mul_le_mul ha hb (abs_nonneg _) ((abs_nonneg _).trans ha)

private theorem add_le {a b A B : ℝ} (ha : |a| ≤ A) (hb : |b| ≤ B) : |a + b| ≤ A + B := (abs_add_le _ _).trans (add_le_add ha hb)

private theorem sub_le {a b A B : ℝ} (ha : |a| ≤ A) (hb : |b| ≤ B) : |a - b| ≤ A + B := (abs_sub _ _).trans (add_le_add ha hb)

private theorem form2_le {E : Fin 2 → Fin 2 → ℝ} {x y : Fin 2 → ℝ} {e X Y : ℝ} (hE : ∀ r s, |E r s| ≤ e) (hx : ∀ r, |x r| ≤ X) (hy : ∀ r, |y r| ≤ Y) :
    |form2 E x y| ≤ 4 * (X * e * Y) := by
  have t : ∀ r s, |x r * E r s * y s| ≤ X * e * Y := fun r s => mul_le (mul_le (hx r) (hE r s)) (hy s)
  unfold form2
  simp only [Fin.sum_univ_two]
  have := add_le (add_le (t 0 0) (t 0 1)) (add_le (t 1 0) (t 1 1))
  linarith

private theorem area_le {m : Mesh} {P Q R : List ℕ} {D : ℝ} (h1 : |mean (nx m) Q - mean (nx m) P| ≤ D) (h2 : |mean (ny m) Q - mean (ny m) P| ≤ D)
    (h3 : |mean (nx m) R - mean (nx m) P| ≤ D) (h4 : |mean (ny m) R - mean (ny m) P| ≤ D) : |sarea m [P, Q, R]| ≤ D ^ 2 := by
  have := sub_le (mul_le h1 h4) (mul_le h3 h2)
  rw [sarea3, abs_div, abs_two]
  linarith [pow_two D]

private theorem mean1 (f : ℕ → ℝ) (a : ℕ) : mean f [a] = f a := by simp [mean]

private theorem single_le (m : Mesh) (i r a : ℕ) : |disp m (single i) r a| ≤ 1 := by
  unfold disp single
  split <;> simp

private theorem single_diff (m : Mesh) (i r a b : ℕ) : |disp m (single i) r a - disp m (single i) r b| ≤ 1 := by
  unfold disp single
  split <;> split <;> simp

/-- the centroid of a triangle is no further from a corner than the other corners -/
private theorem centre_le {m : Mesh} {t o : ℕ} {a b : ℕ} (hs : Side m t (a, b) o) (f : ℕ → ℝ) {D : ℝ}
    (h : ∀ i ∈ [a, b, o], ∀ j ∈ [a, b, o], |f i - f j| ≤ D) :
    |mean f (corners m t) - f a| ≤ D ∧ |mean f (corners m t) - f b| ≤ D ∧ |f a - mean f (corners m t)| ≤ D ∧ |f b - mean f (corners m t)| ≤ D := by
  rw [mean_corners hs]
  dsimp only
  have h1 := abs_le.1 (h a (by simp) b (by simp))
  have h2 := abs_le.1 (h a (by simp) o (by simp))
  have h3 := abs_le.1 (h b (by simp) o (by simp))
  refine ⟨?_, ?_, ?_, ?_⟩ <;> rw [abs_le] <;> constructor <;> linarith [h1.1, h1.2, h2.1, h2.2, h3.1, h3.2]

private theorem turned_le {m : Mesh} {a b : ℕ} {D : ℝ} (hx : |nx m a - nx m b| ≤ D) (hy : |ny m b - ny m a| ≤ D) (r : Fin 2) : |turned m a b r| ≤ D := by
  unfold turned
  split <;> assumption

/-- bounds on the three parts of the residual for unit vectors -/
private theorem resid_le {m : Mesh} (ha : AfterK0 m) (hp : Proper m) (hg : Planar m) {k : Key} (hk : k ∈ m.ekeys) {D : ℝ}
    (hD : ∀ i j, (∃ t ∈ (m.edge k).trias, IsCorner m t i) → (∃ t ∈ (m.edge k).trias, IsCorner m t j) → |nx m i - nx m j| ≤ D ∧ |ny m i - ny m j| ≤ D) :
    ∃ η κ : ℝ, 2 * η + κ ≤ 1 / 10 ^ 16 * (D + 3 * D ^ 2) ∧ ∀ i, (∀ r, |residRho m k (single i) r| ≤ 1) ∧ (∀ r, |residEta m k (single i) r| ≤ η) ∧
      (∀ r, |residKappa m k (single i) r| ≤ κ) := by
  obtain ⟨l1, l2, l3⟩ := lits
  have w := ha.wf
  have cor : ∀ {t o a b : ℕ}, t ∈ (m.edge k).trias → Side m t (a, b) o → ∀ i ∈ [a, b, o], ∃ t ∈ (m.edge k).trias, IsCorner m t i := by
    intro t o a b ht hs i hi
    refine ⟨t, ht, ?_⟩
    have := hs.perm.symm.subset hi
    simpa [Mesh.triaNodes, IsCorner] using this
  rcases prepared_shape w hp ha.prepared hk with ⟨t, o, he, hs⟩ | ⟨t1, t2, o1, o2, he, hs1, hs2, ho, _⟩
  · have htr : (m.edge k).trias = [t] := by rw [he]; rfl
    have hA := triArea_side hs
    have hA0 : triArea m t ≠ 0 := abs_ne_zero.2 (hg.nondeg t hs.mem)
    have hS0 : sarea m [[k.1], [k.2], corners m t] ≠ 0 := by intro h; rw [h, abs_zero] at hA; exact hA0 (by linarith)
    obtain ⟨e1, _, _, _⟩ := ends_spec hs hS0
    have ht : t ∈ (m.edge k).trias := by rw [htr]; simp
    have dk := fun i hi j hj => hD i j (cor ht (k.eta ▸ hs) i hi) (cor ht (k.eta ▸ hs) j hj)
    have de := fun i hi j hj => hD i j (cor ht e1 i hi) (cor ht e1 j hj)
    have cx := centre_le e1 (nx m) fun i hi j hj => (de i hi j hj).1
    have cy := centre_le e1 (ny m) fun i hi j hj => (de i hi j hj).2
    have kx := centre_le (a := k.1) (b := k.2) hs (nx m) fun i hi j hj => (dk i hi j hj).1
    have ky := centre_le (a := k.1) (b := k.2) hs (ny m) fun i hi j hj => (dk i hi j hj).2
    have tu := turned_le (de _ (by simp) _ (by simp)).1 (de _ (by simp) _ (by simp)).2 (a := (ends m k t).1) (b := (ends m k t).2)
    have hdom : |sarea m (dom m k)| ≤ D ^ 2 := by
      rw [dom_b htr]
      have b := dk k.2 (by simp) k.1 (by simp)
      apply area_le <;> simp only [mean1]
      exacts [kx.1, ky.1, b.1, b.2]
    refine ⟨1 / 10 ^ 16 * (D * D * 1), 1 / 10 ^ 16 * (D ^ 2 * 1 + D * 1), by nlinarith, fun i => ⟨fun r => ?_, fun r => ?_, fun r => ?_⟩⟩
    · simp only [residRho, htr, hs.third]; exact single_le ..
    · simp only [residEta, htr]
      refine mul_le l3 ?_
      split
      · exact mul_le (mul_le cy.2.2.1 cy.2.2.2) (single_diff ..)
      · rw [abs_neg]; exact mul_le (mul_le cx.2.2.1 cx.2.2.2) (single_diff ..)
    · simp only [residKappa, htr, hs.third]
      exact mul_le l1 (sub_le (mul_le (by rwa [abs_abs]) (single_le ..)) (mul_le (tu r) (single_le ..)))
  · have htr : (m.edge k).trias = [t1, t2] := by rw [he]; rfl
    have hop := hg.opposite k hk t1 t2 htr
    have hS0 : sarea m [[k.1], [k.2], corners m t1] ≠ 0 := by intro h; rw [h, zero_mul] at hop; exact lt_irrefl _ hop
    obtain ⟨f1, e2, e3, e4⟩ := ends_spec hs1 hS0
    have e5 := e4 _ hop
    have f2 : Side m t2 ((ends m k t1).1, (ends m k t1).2) o2 := by
      rcases e3 with h | h
      · rw [h]; exact hs2
      · have : Side m t2 ((ends m k t1).2, (ends m k t1).1) o2 := by rw [h]; exact hs2
        exact this.swap
    have ht1 : t1 ∈ (m.edge k).trias := by rw [htr]; simp
    have ht2 : t2 ∈ (m.edge k).trias := by rw [htr]; simp
    have d1 := fun i hi j hj => hD i j (cor ht1 f1 i hi) (cor ht1 f1 j hj)
    have d2 := fun i hi j hj => hD i j (cor ht2 f2 i hi) (cor ht2 f2 j hj)
    have c1x := centre_le f1 (nx m) fun i hi j hj => (d1 i hi j hj).1
    have c1y := centre_le f1 (ny m) fun i hi j hj => (d1 i hi j hj).2
    have c2x := centre_le f2 (nx m) fun i hi j hj => (d2 i hi j hj).1
    have c2y := centre_le f2 (ny m) fun i hi j hj => (d2 i hi j hj).2
    have tu := turned_le (d1 _ (by simp) _ (by simp)).1 (d1 _ (by simp) _ (by simp)).2 (a := (ends m k t1).1) (b := (ends m k t1).2)
    have hsub : |sarea m [corners m t1, [(ends m k t1).1], [(ends m k t1).2]]| ≤ D ^ 2 := by
      apply area_le <;> simp only [mean1]
      exacts [c1x.2.2.1, c1y.2.2.1, c1x.2.2.2, c1y.2.2.2]
    have hdm : |sarea m (dom m k)| = sarea m [corners m t1, [(ends m k t1).1], [(ends m k t1).2]] + sarea m [[(ends m k t1).1], corners m t2, [(ends m k t1).2]] := by
      rw [dom_i htr]
      rcases e3 with h | h
      · have h1 : (ends m k t1).1 = k.1 := congrArg Prod.fst h
        have h2 : (ends m k t1).2 = k.2 := congrArg Prod.snd h
        rw [h1, h2] at e2 e5 ⊢
        rw [← abs_of_pos (add_pos e2 e5), ← abs_neg]
        congr 1
        rw [sarea4, sarea3, sarea3, sarea3, sarea3]; ring
      · have h1 : (ends m k t1).2 = k.1 := congrArg Prod.fst h
        have h2 : (ends m k t1).1 = k.2 := congrArg Prod.snd h
        rw [h1, h2] at e2 e5 ⊢
        rw [← abs_of_pos (add_pos e2 e5)]
        congr 1
        rw [sarea4, sarea3, sarea3, sarea3, sarea3]; ring
    refine ⟨0, 1 / 10 ^ 16 * (D ^ 2 * 1) + D * (1 / 10 ^ 16 * 1 + 1 / 10 ^ 16 * (D * 1 + D * 1)), by nlinarith, fun i => ⟨fun r => ?_, fun r => ?_, fun r => ?_⟩⟩
    · simp only [residRho, htr, hs1.third]
      rw [show (1 : ℝ) = 1 * 1 by norm_num]
      refine mul_le ?_ (single_le ..)
      rw [abs_div, abs_abs, abs_abs, hdm, abs_of_pos e2, div_le_one (by linarith)]
      linarith
    · simp [residEta, htr]
    · simp only [residKappa, htr, hs1.third, hs2.third]
      refine add_le (mul_le l1 (mul_le (by rwa [abs_abs]) (single_le ..))) (mul_le (tu r) (add_le (mul_le l1 (single_le ..)) (mul_le l2 (add_le ?_ ?_))))
      · exact mul_le c2x.1 (single_le ..)
      · exact mul_le c2y.1 (single_le ..)

/-- C48, as far as it holds: the edge-based increment is symmetric up to the rounded literals. If the corners of the triangles at an edge are
apart by no more than `D` in either coordinate and the moduli of the edge are bounded by `E`, the edge adds to the difference of an entry
and the mirrored one at most `8e-16 * E * (D + 3 D^2)`. -/
theorem C48_bound_partial {m : Mesh} (ha : AfterK0 m) (hp : Proper m) (hg : Planar m) {pn : Bool} (hh : HasProps m pn) (ht : EdgeThick m pn) (al : ℝ) (fa : Bool)
    {K : Mat} (hK : K.dim = 5 * m.nids.length) {D E : Key → ℝ}
    (hD : ∀ k ∈ m.ekeys, ∀ i j, (∃ t ∈ (m.edge k).trias, IsCorner m t i) → (∃ t ∈ (m.edge k).trias, IsCorner m t j) →
      |nx m i - nx m j| ≤ D k ∧ |ny m i - ny m j| ≤ D k)
    (hE : ∀ k ∈ m.ekeys, ∀ r s, |edgeMod m pn al fa k r s| ≤ E k) {i j : ℕ} (hi : i < K.dim) (hj : j < K.dim) :
    |((addK0s K m pn "edge-based" al fa).1.get i j - K.get i j) - ((addK0s K m pn "edge-based" al fa).1.get j i - K.get j i)| ≤
      8 / 10 ^ 16 * (m.ekeys.map fun k => E k * (D k + 3 * D k ^ 2)).sum := by
  rw [C48_defect_partial ha hp hg hh ht al fa hK hi hj]
  have one : ∀ k ∈ m.ekeys, ∀ a b, |edgeResid m k (edgeMod m pn al fa k) (single a) (single b)| ≤ 4 / 10 ^ 16 * (E k * (D k + 3 * D k ^ 2)) := by
    intro k hk a b
    obtain ⟨η, κ, h1, h⟩ := resid_le ha hp hg hk (hD k hk)
    obtain ⟨r1, e1, _⟩ := h a
    obtain ⟨r2, e2, k2⟩ := h b
    have hE0 : 0 ≤ E k := (abs_nonneg _).trans (hE k hk 0 0)
    have := add_le (form2_le (hE k hk) r1 fun r => add_le (e2 r) (k2 r)) (form2_le (hE k hk) e1 r2)
    have h2 := mul_le_mul_of_nonneg_left h1 hE0
    unfold edgeResid
    linarith
  have sum : ∀ L : List Key, (∀ k ∈ L, k ∈ m.ekeys) → |(L.map fun k => edgeResid m k (edgeMod m pn al fa k) (single i) (single j) -
      edgeResid m k (edgeMod m pn al fa k) (single j) (single i)).sum| ≤ 8 / 10 ^ 16 * (L.map fun k => E k * (D k + 3 * D k ^ 2)).sum := by
    intro L hL
    induction L with
    | nil => simp
    | cons k L ih =>
      simp only [List.map_cons, List.sum_cons]
      have := add_le (sub_le (one k (hL k (by simp)) i j) (one k (hL k (by simp)) j i)) (ih fun k' hk' => hL k' (by simp [hk']))
      linarith
  exact sum _ fun _ h => h

/-- concrete case: the unit square with unit moduli; no entry differs from the mirrored one by more than `1.6e-14` -/
example (K : Mat) (hK : K.dim = 20) {i j : ℕ} (hi : i < 20) (hj : j < 20) :
    |((addK0s K (exAfter exIso exIso exIso exIso exIso exIso) true "edge-based" 0 true).1.get i j - K.get i j)
      - ((addK0s K (exAfter exIso exIso exIso exIso exIso exIso) true "edge-based" 0 true).1.get j i - K.get j i)| ≤ 1.6 / 10 ^ 14 := by
  have a0 := exAfter_after exIso exIso exIso exIso exIso exIso
  have hp0 := exAfter_proper exIso exIso exIso exIso exIso exIso
  have hg0 := exAfter_planar exIso exIso exIso exIso exIso exIso
  have hH0 := exAfter_Homog exIso true
  have st := exAfter_static exIso exIso exIso exIso exIso exIso
  have h := C48_bound_partial a0 hp0 hg0 (exAfter_props exIso exIso exIso exIso exIso exIso true)
    (edgeThick_homog a0.wf hp0 hg0 hH0 (by norm_num [exIso, exLam])) 0 true (K := K) (by rw [exAfter_nids]; exact hK)
    (D := fun _ => 1) (E := fun _ => 1) ?_ ?_ (hK ▸ hi) (hK ▸ hj)
  · rw [st.ekeys, exMesh_ekeys] at h
    norm_num at h ⊢
    exact h
  · intro k hk a b ⟨t, ht, hta⟩ ⟨t', ht', htb⟩
    have ia := corner_mem a0.wf hp0.distinct (side_of a0.wf hp0.distinct hk ht).choose_spec.1.mem hta
    have ib := corner_mem a0.wf hp0.distinct (side_of a0.wf hp0.distinct hk ht').choose_spec.1.mem htb
    rw [exAfter_nids] at ia ib
    simp only [List.mem_cons, List.not_mem_nil, or_false] at ia ib
    rcases ia with rfl | rfl | rfl | rfl <;> rcases ib with rfl | rfl | rfl | rfl <;>
      simp only [nx, ny, st.xyz, exMesh_node1, exMesh_node2, exMesh_node3, exMesh_node4] <;> norm_num
  · intro k hk r s
    unfold edgeMod bndMod intMod
    rw [edgeStab_homog a0.wf hp0 hg0 hH0 (by norm_num [exIso, exLam]) hk]
    simp only [avg_const a0.wf hp0 hg0 hk (Homog_slot a0.wf hp0 hH0)]
    split <;> fin_cases r <;> fin_cases s <;> norm_num [exIso, exLam]

end Meshless
