import Verif.Props.Converge

/-! Loads in balance with a field exist (C132), and a concrete case of C132: the clamped unit square on ever finer grids. -/

set_option autoImplicit false

namespace Meshless
open Spec Finset MeasureTheory Filter Topology

section
variable {m : Mesh} {l : ℝ × ℝ → Lam} {L0 L1 S M : ℝ} {F Fx Fy : ℕ → ℝ × ℝ → ℝ}

theorem linShear_lin (w : WF m) (hp : Proper m) {t : ℕ} (ht : t ∈ m.eids) (v : ℕ → ℝ) (x : ℝ × ℝ) (r : Fin 2) :
    linShear m t v x r = ∑ i ∈ range (5 * m.nids.length), v i * linShear m t (single i) x r := by
  have hd : ∀ r < 5, ∀ i, IsCorner m t i → disp m v r i = ∑ a ∈ range (5 * m.nids.length), v a * disp m (single a) r i := by
    intro r hr i hi
    have := List.idxOf_lt_length_iff.2 (corner_mem w hp.distinct ht hi)
    unfold disp single
    simp only [mul_ite, mul_one, mul_zero]
    rw [sum_ite_eq, if_pos (mem_range.2 (by omega))]
  have hx : ∀ r < 5, gradX m (tpoly m t) (disp m v r) = ∑ a ∈ range (5 * m.nids.length), v a * gradX m (tpoly m t) (disp m (single a) r) := fun r hr => by
    rw [(gradX_tri_congr (hd r hr)).1, gradX_lin]
  have hy : ∀ r < 5, gradY m (tpoly m t) (disp m v r) = ∑ a ∈ range (5 * m.nids.length), v a * gradY m (tpoly m t) (disp m (single a) r) := fun r hr => by
    rw [(gradX_tri_congr (hd r hr)).2, gradY_lin]
  have hl : ∀ r < 5, lin m t (disp m v r) x = ∑ a ∈ range (5 * m.nids.length), v a * lin m t (disp m (single a) r) x := fun r hr => by
    unfold lin
    rw [hd r hr _ (Or.inl rfl), hx r hr, hy r hr, sum_mul, sum_mul, ← sum_add_distrib, ← sum_add_distrib]
    exact sum_congr rfl fun a _ => by ring
  unfold linShear
  fin_cases r
  · change _ + _ = ∑ i ∈ _, _ * (_ + _)
    rw [hx 2 (by norm_num), hl 3 (by norm_num), ← sum_add_distrib]
    exact sum_congr rfl fun a _ => by rw [mul_add]
  · change _ + _ = ∑ i ∈ _, _ * (_ + _)
    rw [hy 2 (by norm_num), hl 4 (by norm_num), ← sum_add_distrib]
    exact sum_congr rfl fun a _ => by rw [mul_add]

theorem virtual_cont (hl : SmoothLam m (fun _ => l) L0 L1) (hF : SmoothField m F Fx Fy S M) {e : ℕ} (he : e ∈ m.eids) (v : ℕ → ℝ) :
    ContinuousOn (fun x => ∑ p, ∑ q, strain Fx Fy x p * abd (l x) p q * triEps m e v q + ∑ r, shear F Fx Fy x r * shearStiff (l x) r * linShear m e v x r) (hull m e) := by
  refine ContinuousOn.add ?_ ?_
  · exact continuousOn_finsetSum _ fun p _ => continuousOn_finsetSum _ fun q _ => ((strain_cont hF he p).mul (lam_cont hl he (abd_lamData p q))).mul continuousOn_const
  · exact continuousOn_finsetSum _ fun r _ => ((shear_cont he hF r).mul (stiff_cont hl he r)).mul (linShear_cont v r).continuousOn

theorem virtualWork_lin (w : WF m) (hp : Proper m) (hl : SmoothLam m (fun _ => l) L0 L1) (hF : SmoothField m F Fx Fy S M) (v : ℕ → ℝ) :
    virtualWork m l F Fx Fy v = ∑ i ∈ range (5 * m.nids.length), virtualWork m l F Fx Fy (single i) * v i := by
  unfold virtualWork
  have h1 : ∀ e ∈ m.eids, ∫ x in hull m e, (∑ p, ∑ q, strain Fx Fy x p * abd (l x) p q * triEps m e v q + ∑ r, shear F Fx Fy x r * shearStiff (l x) r * linShear m e v x r) =
      ∑ i ∈ range (5 * m.nids.length), v i * ∫ x in hull m e, (∑ p, ∑ q, strain Fx Fy x p * abd (l x) p q * triEps m e (single i) q +
        ∑ r, shear F Fx Fy x r * shearStiff (l x) r * linShear m e (single i) x r) := by
    intro e he
    simp only [← integral_const_mul]
    rw [← integral_finsetSum _ fun i _ => ((virtual_cont hl hF he (single i)).integrableOn_compact (hull_compact m e)).const_mul (v i)]
    refine integral_congr_ae (Filter.Eventually.of_forall fun x => ?_)
    change _ = ∑ i ∈ _, _
    simp only [triEps_lin w hp he v, linShear_lin w hp he v x, mul_sum, mul_add, sum_add_distrib]
    congr 1
    · rw [sum_comm (s := range (5 * m.nids.length))]
      refine sum_congr rfl fun p _ => ?_
      rw [sum_comm (s := range (5 * m.nids.length))]
      exact sum_congr rfl fun q _ => sum_congr rfl fun i _ => by ring
    · rw [sum_comm (s := range (5 * m.nids.length))]
      exact sum_congr rfl fun q _ => sum_congr rfl fun i _ => by ring
  rw [List.map_congr_left h1]
  have h2 : ∀ (L : List ℕ) (G : ℕ → ℕ → ℝ), (L.map fun e => ∑ i ∈ range (5 * m.nids.length), v i * G e i).sum = ∑ i ∈ range (5 * m.nids.length), (L.map fun e => G e i).sum * v i := by
    intro L G
    induction L with
    | nil => simp
    | cons a L ih =>
      simp only [List.map_cons, List.sum_cons, add_mul, sum_add_distrib]
      rw [ih]
      congr 1
      exact sum_congr rfl fun i _ => mul_comm _ _
  exact h2 _ _

/-- C132: every smooth field has nodal loads in balance with it, whatever the supports -/
theorem C132_loads (hr : Reachable m) (hp : Proper m) (hl : SmoothLam m (fun _ => l) L0 L1) (hF : SmoothField m F Fx Fy S M) : ∃ f, ∀ Sp, Balanced m l F Fx Fy Sp f :=
  ⟨fun i => virtualWork m l F Fx Fy (single i), fun _ v _ => (virtualWork_lin hr.wf hp hl hF v).symm⟩
end

/-! ### concrete case: the unit square clamped along its border -/

/-- degrees of freedom of the nodes on the border -/
def gridBorder (k : ℕ) : Set ℕ := {p | p / 5 / (k + 1) = 0 ∨ p / 5 / (k + 1) = k ∨ p / 5 % (k + 1) = 0 ∨ p / 5 % (k + 1) = k}

theorem border_dof {k i j : ℕ} (hj : j ≤ k) (h : i = 0 ∨ i = k ∨ j = 0 ∨ j = k) {r : ℕ} (hr : r < 5) : 5 * (i * (k + 1) + j) + r ∈ gridBorder k := by
  unfold gridBorder
  rw [Set.mem_ofPred_eq, show (5 * (i * (k + 1) + j) + r) / 5 = j + (k + 1) * i by rw [Nat.mul_comm i]; omega, Nat.add_mul_div_left _ _ (by omega), Nat.add_mul_mod_self_left,
    Nat.div_eq_of_lt (by omega), Nat.mod_eq_of_lt (by omega), zero_add]
  exact h

theorem cell_inj {k i j i' j' : ℕ} {s s' : Bool} (hj : j < k) (hj' : j' < k) (h : gridCell k i j s = gridCell k i' j' s') : i = i' ∧ j = j' ∧ s = s' := by
  have h1 : i * (k + 1) + j = i' * (k + 1) + j' := by
    have := congrArg Prod.fst h
    cases s <;> cases s' <;> simpa [gridCell] using this
  have key : ∀ a b : ℕ, b < k + 1 → (a * (k + 1) + b) / (k + 1) = a ∧ (a * (k + 1) + b) % (k + 1) = b := fun a b hb => by
    rw [show a * (k + 1) + b = b + (k + 1) * a by ring, Nat.add_mul_div_left _ _ (by omega), Nat.add_mul_mod_self_left, Nat.div_eq_of_lt hb, Nat.mod_eq_of_lt hb, zero_add]
    exact ⟨rfl, rfl⟩
  have e1 := key i j (by omega)
  have e2 := key i' j' (by omega)
  rw [h1] at e1
  have hi : i = i' := e1.1.symm.trans e2.1
  have hj : j = j' := e1.2.symm.trans e2.2
  subst hi hj
  refine ⟨rfl, rfl, ?_⟩
  cases s <;> cases s' <;> simp [gridCell] at h ⊢

section
variable {k : ℕ} {l : ℝ × ℝ → Lam} {pn : Bool} {m : Mesh} (h : GridMesh k l pn m)
include h

/-- a side with one triangle lies on one of the four sides of the border -/
theorem GridMesh.side_border {key : Key} (hk : key ∈ m.ekeys) (h1 : (m.edge key).trias.length = 1) : ∃ a b a' b', a ≤ k ∧ b ≤ k ∧ a' ≤ k ∧ b' ≤ k ∧
    (a = 0 ∧ a' = 0 ∨ a = k ∧ a' = k ∨ b = 0 ∧ b' = 0 ∨ b = k ∧ b' = k) ∧ key.1 = a * (k + 1) + b + 1 ∧ key.2 = a' * (k + 1) + b' + 1 := by
  have w := h.reach.wf
  have hp := h.good.proper
  obtain ⟨t, ht⟩ : ∃ t, (m.edge key).trias = [t] := List.length_eq_one_iff.1 h1
  have hts : t ∈ m.eids ∧ key ∈ (m.tria t).edgeIds := by
    have : t ∈ (m.edge key).trias := by rw [ht]; simp
    rw [w.etrias key hk] at this
    exact mem_sideTrias.1 this
  obtain ⟨hte, hks⟩ := hts
  have single : ∀ t' ∈ m.eids, key ∈ (m.tria t').edgeIds → t' = t := fun t' h' hs => by
    have := (side_trias w h' hs).2
    rw [ht] at this
    simpa using this
  rw [h.eids, List.mem_range'_1] at hte
  obtain ⟨t, rfl⟩ : ∃ t', t = t' + 1 := ⟨t - 1, by omega⟩
  have htk : t < 2 * (k * k) := by omega
  obtain ⟨i, hi, j, hj, s, e1, -⟩ := gridTri_cell htk
  have ids : ∀ t < 2 * (k * k), ∀ c, gridTri k t = c → (m.tria (t + 1)).edgeIds = [sortPair (c.1 + 1) (c.2.1 + 1), sortPair (c.2.1 + 1) (c.2.2 + 1), sortPair (c.2.2 + 1) (c.1 + 1)] := by
    intro t ht c hc
    obtain ⟨c1, c2, c3⟩ := h.tria t ht
    unfold Tria.edgeIds
    rw [c1, c2, c3, hc]
  have other : ∀ i' < k, ∀ j' < k, ∀ s' : Bool, key ∈ [sortPair ((gridCell k i' j' s').1 + 1) ((gridCell k i' j' s').2.1 + 1),
      sortPair ((gridCell k i' j' s').2.1 + 1) ((gridCell k i' j' s').2.2 + 1), sortPair ((gridCell k i' j' s').2.2 + 1) ((gridCell k i' j' s').1 + 1)] → i' = i ∧ j' = j ∧ s' = s := by
    intro i' hi' j' hj' s' hm
    obtain ⟨t', ht', e2⟩ := List.mem_map.1 (cell_gridTri hi' hj' s')
    have ht'' := List.mem_range.1 ht'
    rw [← ids t' ht'' _ e2] at hm
    have := single (t' + 1) (by rw [h.eids, List.mem_range'_1]; omega) hm
    have : t' = t := by omega
    subst this
    exact cell_inj hj' hj (e2.symm.trans e1)
  have ends : ∀ a b a' b', a ≤ k → b ≤ k → a' ≤ k → b' ≤ k → (a = 0 ∧ a' = 0 ∨ a = k ∧ a' = k ∨ b = 0 ∧ b' = 0 ∨ b = k ∧ b' = k) →
      key = sortPair (a * (k + 1) + b + 1) (a' * (k + 1) + b' + 1) → ∃ a b a' b', a ≤ k ∧ b ≤ k ∧ a' ≤ k ∧ b' ≤ k ∧
        (a = 0 ∧ a' = 0 ∨ a = k ∧ a' = k ∨ b = 0 ∧ b' = 0 ∨ b = k ∧ b' = k) ∧ key.1 = a * (k + 1) + b + 1 ∧ key.2 = a' * (k + 1) + b' + 1 := by
    intro a b a' b' h1 h2 h3 h4 h5 h6
    rcases sortPair_cases (a * (k + 1) + b + 1) (a' * (k + 1) + b' + 1) with ⟨e, _⟩ | ⟨e, _⟩ <;> rw [e] at h6
    · exact ⟨a, b, a', b', h1, h2, h3, h4, h5, by rw [h6], by rw [h6]⟩
    · exact ⟨a', b', a, b, h3, h4, h1, h2, by omega, by rw [h6], by rw [h6]⟩
  rw [ids t htk _ e1] at hks
  simp only [List.mem_cons, List.not_mem_nil, or_false] at hks other
  cases s
  · simp only [gridCell, Bool.false_eq_true, if_false] at hks
    rcases hks with hs | hs | hs
    · rcases Nat.eq_zero_or_pos j with rfl | hj0
      · exact ends (i) (0) (i + 1) (0) (by omega) (by omega) (by omega) (by omega) (by omega) hs
      · obtain ⟨j, rfl⟩ : ∃ j', j = j' + 1 := ⟨j - 1, by omega⟩
        have := other i hi j (by omega) true (Or.inr (Or.inl (by rw [hs, sortPair_comm]; simp [gridCell])))
        simp at this
    · by_cases hi' : i + 1 < k
      · have := other (i + 1) hi' j hj true (Or.inr (Or.inr (by rw [hs, sortPair_comm]; simp [gridCell])))
        simp at this
      · exact ends (i + 1) (j) (i + 1) (j + 1) (by omega) (by omega) (by omega) (by omega) (by omega) hs
    · have := other i hi j hj true (Or.inl (by rw [hs, sortPair_comm]; simp [gridCell]))
      simp at this
  · simp only [gridCell, if_true] at hks
    rcases hks with hs | hs | hs
    · have := other i hi j hj false (Or.inr (Or.inr (by rw [hs, sortPair_comm]; simp [gridCell])))
      simp at this
    · by_cases hj' : j + 1 < k
      · have := other i hi (j + 1) hj' false (Or.inl (by rw [hs, sortPair_comm]; simp [gridCell]))
        simp at this
      · exact ends (i + 1) (j + 1) (i) (j + 1) (by omega) (by omega) (by omega) (by omega) (by omega) hs
    · rcases Nat.eq_zero_or_pos i with rfl | hi0
      · exact ends (0) (j + 1) (0) (j) (by omega) (by omega) (by omega) (by omega) (by omega) hs
      · obtain ⟨i, rfl⟩ : ∃ i', i = i' + 1 := ⟨i - 1, by omega⟩
        have := other i (by omega) j (by omega) false (Or.inr (Or.inl (by rw [hs, sortPair_comm]; simp [gridCell])))
        simp at this

theorem GridMesh.clamped : Clamped m (gridBorder k) := by
  intro key hk h1 n hn r hr
  obtain ⟨a, b, a', b', h2, h3, h4, h5, h6, h7, h8⟩ := h.side_border hk h1
  rcases hn with rfl | rfl
  · rw [h7, h.idx (node_lt h2 h3)]
    exact border_dof h3 (by omega) hr
  · rw [h8, h.idx (node_lt h4 h5)]
    exact border_dof h5 (by omega) hr

theorem GridMesh.held_border (hk : 0 < k) : Held m (gridBorder k) := by
  obtain ⟨i, hi, j, hj, h1⟩ := h.held hk
  have hsub : gridEdge k ⊆ gridBorder k := fun p hp => Or.inl (Nat.div_eq_of_lt (by have : p < 5 * (k + 1) := hp
                                                                                    omega))
  refine ⟨i, hi, j, hj, ?_⟩
  rcases h1 with ⟨a, b⟩ | ⟨a, b⟩
  · exact Or.inl ⟨a, fun r hr => ⟨hsub (b r hr).1, hsub (b r hr).2⟩⟩
  · exact Or.inr ⟨a, fun r hr => ⟨hsub (b r hr).1, hsub (b r hr).2⟩⟩
end

/-- a bubble: all displacements vanish on the border and nowhere inside -/
noncomputable def bubble (x : ℝ × ℝ) : ℝ := x.1 * (1 - x.1) * (x.2 * (1 - x.2))

theorem quarter {a : ℝ} (h0 : 0 ≤ a) (h1 : a ≤ 1) : 0 ≤ a * (1 - a) ∧ a * (1 - a) ≤ 1 := ⟨mul_nonneg h0 (by linarith), by nlinarith⟩

theorem bubble_lip {a b c d δ : ℝ} (hb0 : 0 ≤ b) (hb1 : b ≤ 1) (hc0 : 0 ≤ c) (hc1 : c ≤ 1) (hd0 : 0 ≤ d) (hd1 : d ≤ 1) (h1 : |a - c| ≤ δ) (h2 : |b - d| ≤ δ) :
    |(1 - 2 * a) * (b * (1 - b)) - (1 - 2 * c) * (d * (1 - d))| ≤ 3 * δ := by
  have q := quarter hb0 hb1
  have b1 : |1 - 2 * c| ≤ 1 := by rw [abs_le]; constructor <;> linarith
  have b2 : |1 - b - d| ≤ 1 := by rw [abs_le]; constructor <;> linarith
  have hδ := (abs_nonneg _).trans h1
  rw [show (1 - 2 * a) * (b * (1 - b)) - (1 - 2 * c) * (d * (1 - d)) = -(2 * (b * (1 - b)) * (a - c)) + (1 - 2 * c) * ((1 - b - d) * (b - d)) by ring]
  refine (abs_add_le _ _).trans ?_
  rw [abs_neg, abs_mul, abs_mul (1 - 2 * c), abs_mul (1 - b - d), abs_of_nonneg (by linarith [q.1] : 0 ≤ 2 * (b * (1 - b)))]
  have e1 := mul_le_mul (by linarith [q.2] : 2 * (b * (1 - b)) ≤ 2) h1 (abs_nonneg _) (by norm_num)
  have e2 := mul_le_mul b2 h2 (abs_nonneg _) zero_le_one
  have e3 := mul_le_mul b1 e2 (by positivity) zero_le_one
  linarith

theorem bubble_on : FieldOn unitSquare (fun _ => bubble) (fun _ x => (1 - 2 * x.1) * (x.2 * (1 - x.2))) (fun _ x => x.1 * (1 - x.1) * (1 - 2 * x.2)) 1 3 := by
  refine ⟨fun _ _ x _ => ?_, fun _ _ x hx => ?_, fun _ _ x hx y hy => ?_⟩
  · have a := hasFDerivAt_fst (𝕜 := ℝ) (p := x)
    have b := hasFDerivAt_snd (𝕜 := ℝ) (p := x)
    have := ((a.mul (a.const_sub 1)).mul (b.mul (b.const_sub 1))).hasFDerivWithinAt (s := unitSquare)
    refine this.congr_fderiv ?_
    ext <;> simp <;> ring
  · obtain ⟨⟨h1, h2⟩, h3, h4⟩ := mem_unitSquare.1 hx
    have q1 := quarter h1 h3
    have q2 := quarter h2 h4
    have b1 : |1 - 2 * x.1| ≤ 1 := by rw [abs_le]; constructor <;> linarith
    have b2 : |1 - 2 * x.2| ≤ 1 := by rw [abs_le]; constructor <;> linarith
    unfold bubble
    rw [abs_mul (x.1 * (1 - x.1)) (x.2 * (1 - x.2)), abs_mul (1 - 2 * x.1), abs_mul _ (1 - 2 * x.2), abs_of_nonneg q1.1, abs_of_nonneg q2.1]
    exact ⟨mul_le_one₀ q1.2 q2.1 q2.2, mul_le_one₀ b1 q2.1 q2.2, mul_le_one₀ q1.2 (abs_nonneg _) b2⟩
  · obtain ⟨⟨h1, h2⟩, h3, h4⟩ := mem_unitSquare.1 hx
    obtain ⟨⟨k1, k2⟩, k3, k4⟩ := mem_unitSquare.1 hy
    have d1 : |x.1 - y.1| ≤ dist x y := by rw [← Real.dist_eq, Prod.dist_eq]; exact le_max_left _ _
    have d2 : |x.2 - y.2| ≤ dist x y := by rw [← Real.dist_eq, Prod.dist_eq]; exact le_max_right _ _
    refine ⟨bubble_lip h2 h4 k1 k3 k2 k4 d1 d2, ?_⟩
    have := bubble_lip h1 h3 k2 k4 k1 k3 d2 d1
    rw [show x.1 * (1 - x.1) * (1 - 2 * x.2) - y.1 * (1 - y.1) * (1 - 2 * y.2) = (1 - 2 * x.2) * (x.1 * (1 - x.1)) - (1 - 2 * y.2) * (y.1 * (1 - y.1)) by ring]
    exact this

theorem bubble_supported {k : ℕ} (hk : 0 < k) (N : ℕ) : Supported N (gridBorder k) (gridVals k fun _ => bubble) := by
  intro p _ hp
  have hk' : (k : ℝ) ≠ 0 := by exact_mod_cast hk.ne'
  rcases hp with hp | hp | hp | hp <;> simp [gridVals, gridAt, bubble, hp, hk']

theorem exIso_shearLeast : ShearAtLeast 1 exIso := by
  refine ⟨?_, ?_, ?_, ?_⟩ <;> norm_num [exIso, exLam]

/-- The unit square clamped along its border, loaded so that in the plate theory all displacements are the bubble: on ever finer grids the computed
displacements and strains tend to those of the plate theory, and so does the work of the loads. -/
example (pn : Bool) : ∃ (m : ℕ → Mesh) (K : ℕ → Mat) (f d : ℕ → ℕ → ℝ), (∀ n, GridMesh (n + 1) (fun _ => exIso) pn (m n)) ∧
    (∀ n, StaticProblem (m n) pn (fun _ => exIso) "cell-based-no-smoothing" (1 / 10) false (gridBorder (n + 1)) (fun _ => bubble) (fun _ x => (1 - 2 * x.1) * (x.2 * (1 - x.2)))
      (fun _ x => x.1 * (1 - x.1) * (1 - 2 * x.2)) (K n) (gridVals (n + 1) fun _ => bubble) (f n) (d n)) ∧
    Tendsto (fun n => dispSize (m n) fun i => d n i - gridVals (n + 1) (fun _ => bubble) i) atTop (nhds 0) ∧
    Tendsto (fun n => strainErr (m n) (fun _ x => (1 - 2 * x.1) * (x.2 * (1 - x.2))) (fun _ x => x.1 * (1 - x.1) * (1 - 2 * x.2)) (d n)) atTop (nhds 0) := by
  choose m h using fun n => gridMesh_exists (Nat.succ_pos n) (fun _ => exLam_stiff one_pos one_pos one_pos one_pos) pn
  choose K0 K hK0 hK hG using fun n => (h n).made (Or.inr rfl) (1 / 10) false
  have hc : ∀ x ∈ unitSquare, AtLeast 1 ((fun _ => exIso : ℝ × ℝ → Lam) x) := fun _ _ => exLam_least le_rfl le_rfl
  have hsh : ∀ x ∈ unitSquare, ShearAtLeast 1 ((fun _ => exIso : ℝ × ℝ → Lam) x) := fun _ _ => exIso_shearLeast
  have hth : ∀ x ∈ unitSquare, 1 ≤ ((fun _ => exIso : ℝ × ℝ → Lam) x).h := fun _ _ => le_rfl
  have hR := grid_refined h
  choose f hf using fun n => C132_loads (h n).reach (h n).good.proper (refined_smooth (fun n => (h n).good) hR exUniform_on hc hsh hth n).lam (bubble_on.smooth fun e he => (hR.tiles n).sub he)
  choose d hd hu using fun n => C76_static (h n).reach (h n).good (by norm_num) (hK n) ((h n).held_border (Nat.succ_pos n)) (f n)
  have hpr : ∀ n, StaticProblem (m n) pn (fun _ => exIso) "cell-based-no-smoothing" (1 / 10) false (gridBorder (n + 1)) (fun _ => bubble) (fun _ x => (1 - 2 * x.1) * (x.2 * (1 - x.2)))
      (fun _ x => x.1 * (1 - x.1) * (1 - 2 * x.2)) (K n) (gridVals (n + 1) fun _ => bubble) (f n) (d n) := fun n =>
    ⟨hK n, (h n).nodal _, bubble_supported (Nat.succ_pos n) _, hf n _, hd n⟩
  obtain ⟨t1, t2, _⟩ := C132_limit (fun n => (h n).reach) (fun n => (h n).good) hR (by norm_num) zero_le_one le_rfl exUniform_on one_pos one_pos one_pos hc hsh hth (R := 1)
    (fun x hx => by obtain ⟨⟨h1, h2⟩, h3, h4⟩ := mem_unitSquare.1 hx; rw [abs_of_nonneg h1]; exact h3) (by norm_num) zero_le_one (by norm_num) bubble_on (fun n => (h n).clamped) hpr
  exact ⟨m, K, f, d, h, hpr, t1, t2⟩

end Meshless
