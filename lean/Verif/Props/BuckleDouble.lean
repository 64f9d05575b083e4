import Verif.Spec.BuckleDouble
import Verif.Lemmas.BuckleErr
import Verif.Props.StaticDouble
import Verif.Props.BoundKG
import Verif.Props.Modal
import Verif.Lemmas.Parts

/-! C161: buckling factors from matrices computed in double precision, with explicit constants. -/

set_option autoImplicit false

namespace Meshless
open Spec Finset

theorem stable_of_atLeast {K : Mat} {S : Set ℕ} {c : ℝ} (hc0 : 0 < c) (hc : StiffAtLeast K S c) : Stable K S := by
  intro u hu hne
  obtain ⟨i, hi, hi0⟩ := hne
  refine (mul_pos hc0 ?_).trans_le (hc u hu)
  exact sum_pos' (fun _ _ => sq_nonneg _) ⟨i, mem_range.2 hi, by positivity⟩

/-! The number of edges behind the entries in one row of kG. -/

theorem contributionsKG_comm (m : Mesh) (i j : ℕ) : contributionsKG m i j = contributionsKG m j i := by
  unfold contributionsKG
  refine List.countP_congr fun k _ => ?_
  simp only [decide_eq_true_eq]
  exact and_comm

/-- the distance allowed in `KGNear`, from the positions in the matrix -/
private noncomputable def kGDist (m : Mesh) (n e E M : ℝ) (p q : ℕ) : ℝ :=
  let c := contributionsKG m (m.nids.getD (p / 5) 0) (m.nids.getD (q / 5) 0)
  kGErr c n E M (p % 5) (q % 5) + if p % 5 = 2 ∧ q % 5 = 2 then e * (4 * c * M) else 0

private theorem kGDist_comm (m : Mesh) (n e E M : ℝ) (p q : ℕ) : kGDist m n e E M p q = kGDist m n e E M q p := by
  unfold kGDist kGErr
  dsimp only
  rw [contributionsKG_comm]
  simp only [and_comm]

section
variable {m : Mesh} (w : WF m)
include w

theorem edge_fourG (hp : Proper m) {k : Key} (hk : k ∈ m.ekeys) : ∃ L : Finset ℕ, L.card ≤ 4 ∧ ∀ i, WritesKG m k i → i ∈ L := by
  have hm := hp.manifold k hk
  rcases hl : (m.edge k).trias with _ | ⟨t, _ | ⟨t', _ | ⟨t'', ts⟩⟩⟩
  · refine ⟨∅, by simp, fun i hi => ?_⟩
    rcases hi with ⟨t, ht, _⟩ | ⟨h, _⟩
    · rw [hl] at ht; simp at ht
    · unfold OneTria at h; rw [hl] at h; simp at h
  · obtain ⟨o, ho⟩ := edge_third w hk (t := t) (by rw [hl]; simp)
    refine ⟨{k.1, k.2, o, (m.nids.head?).getD 0}, card_le_four, fun i hi => ?_⟩
    simp only [mem_insert, mem_singleton]
    rcases hi with ⟨s, hs, hc⟩ | ⟨_, h⟩
    · rw [hl] at hs
      obtain rfl := List.mem_singleton.1 hs
      have := ho i hc
      tauto
    · rw [h]; simp
  · obtain ⟨o, ho⟩ := edge_third w hk (t := t) (by rw [hl]; simp)
    obtain ⟨o', ho'⟩ := edge_third w hk (t := t') (by rw [hl]; simp)
    refine ⟨{k.1, k.2, o, o'}, card_le_four, fun i hi => ?_⟩
    simp only [mem_insert, mem_singleton]
    rcases hi with ⟨s, hs, hc⟩ | ⟨h, _⟩
    · rw [hl] at hs
      simp only [List.mem_cons, List.not_mem_nil, or_false] at hs
      rcases hs with rfl | rfl
      · have := ho i hc; tauto
      · have := ho' i hc; tauto
    · unfold OneTria at h; rw [hl] at h; simp at h
  · rw [hl] at hm; simp at hm

open Classical in
theorem writesG_at {v : ℕ} (hv : Valence m v) {i : ℕ} (hi : i ∈ m.nids) : (m.ekeys.toFinset.filter fun k => WritesKG m k i).card ≤ 3 * v + rimCount m := by
  have : (m.ekeys.toFinset.filter fun k => WritesKG m k i) ⊆ (m.ekeys.toFinset.filter fun k => AtEdge m k i) ∪ m.ekeys.toFinset.filter fun k => OneTria m k := by
    intro k hk
    simp only [mem_filter, mem_union] at hk ⊢
    obtain ⟨h1, h2 | h2⟩ := hk
    · exact Or.inl ⟨h1, h2⟩
    · exact Or.inr ⟨h1, h2.1⟩
  refine (card_le_card this).trans ((card_union_le _ _).trans (add_le_add ?_ (le_of_eq ?_)))
  · refine (edges_at w i).trans (Nat.mul_le_mul_left _ ?_)
    exact (countP_card w.eids_nodup).symm.le.trans (hv i hi)
  · unfold rimCount
    exact (countP_card w.ekeys_nodup).symm

open Classical in
theorem contributionsKG_le {v : ℕ} (hv : Valence m v) {i : ℕ} (hi : i ∈ m.nids) (j : ℕ) : contributionsKG m i j ≤ 3 * v + rimCount m := by
  unfold contributionsKG
  refine (countP_card (d2 := fun k => Classical.propDecidable _) w.ekeys_nodup).le.trans ?_
  exact (card_le_card fun k hk => by simp only [mem_filter] at hk ⊢; exact ⟨hk.1, hk.2.1⟩).trans (writesG_at w hv hi)

open Classical in
theorem contributionsKG_sum (hp : Proper m) {v : ℕ} (hv : Valence m v) {i : ℕ} (hi : i ∈ m.nids) :
    ∑ j ∈ m.nids.toFinset, contributionsKG m i j ≤ 4 * (3 * v + rimCount m) := by
  have e : ∀ j, contributionsKG m i j = (m.ekeys.toFinset.filter fun k => WritesKG m k i ∧ WritesKG m k j).card := fun j => countP_card w.ekeys_nodup
  simp only [e]
  refine (sum_pair _ _ (WritesKG m) i 4 fun k hk _ => ?_).trans (Nat.mul_le_mul_left _ (writesG_at w hv hi))
  obtain ⟨L, h1, h2⟩ := edge_fourG w hp (List.mem_toFinset.1 hk)
  exact (card_le_card fun j hj => h2 j (mem_filter.1 hj).2).trans h1

private theorem kGDist_row (hp : Proper m) {v : ℕ} (hv : Valence m v) {n e E M : ℝ} (hn : 0 ≤ n) (he : 0 ≤ e) (hE : 0 ≤ E) (hM : 0 ≤ M) {x : ℕ}
    (hx : x < 5 * m.nids.length) : ∑ y ∈ range (5 * m.nids.length), kGDist m n e E M x y ≤ kGRowErr n e E M v (rimCount m) := by
  classical
  obtain ⟨i, hi, ei, -⟩ := nids_at w hx
  set c : ℝ := ((3 * v + rimCount m : ℕ) : ℝ) with hc
  set A := 8 * n * (E + 4 * c * M + 1) / 2 ^ 53 + 4 * M * e with hAd
  have hc0 : 0 ≤ c := Nat.cast_nonneg _
  have hA : 0 ≤ A := by positivity
  have off : ∀ a s, s < 5 → s ≠ 2 → kGDist m n e E M x (5 * a + s) = 0 := by
    intro a s hs h2
    unfold kGDist kGErr
    rw [show (5 * a + s) % 5 = s by omega]
    simp [h2]
  have on : ∀ a, kGDist m n e E M x (5 * a + 2) ≤ A * contributionsKG m i (m.nids.getD a 0) := by
    intro a
    unfold kGDist kGErr
    rw [ei, show (5 * a + 2) / 5 = a by omega, show (5 * a + 2) % 5 = 2 by omega]
    generalize m.nids.getD a 0 = j
    dsimp only
    have c1 : (contributionsKG m i j : ℝ) ≤ c := by rw [hc]; exact_mod_cast contributionsKG_le w hv hi j
    have c0 : (0:ℝ) ≤ contributionsKG m i j := Nat.cast_nonneg _
    generalize (contributionsKG m i j : ℝ) = n0 at c1 c0
    split_ifs
    · have : E + 4 * n0 * M + 1 ≤ E + 4 * c * M + 1 := by gcongr
      have h1 : n * (8 * n0 * (E + 4 * n0 * M + 1)) / 2 ^ 53 ≤ n * (8 * n0 * (E + 4 * c * M + 1)) / 2 ^ 53 := by gcongr
      calc _ ≤ n * (8 * n0 * (E + 4 * c * M + 1)) / 2 ^ 53 + e * (4 * n0 * M) := by linarith
        _ = A * n0 := by rw [hAd]; ring
    · rw [add_zero]; positivity
  have nodes : ∀ g : ℕ → ℝ, ∑ a ∈ range m.nids.length, g (m.nids.getD a 0) = ∑ j ∈ m.nids.toFinset, g j := by
    intro g
    rw [List.sum_toFinset _ w.nids_nodup, ← sum_nodes w.nids_nodup fun a => g (m.nids.getD a 0)]
    congr 1
    refine List.map_congr_left fun j hj => ?_
    rw [List.getD_eq_getElem _ _ (List.idxOf_lt_length_of_mem hj), List.getElem_idxOf]
  rw [sum_by_node]
  have step : ∑ a ∈ range m.nids.length, (kGDist m n e E M x (5 * a) + kGDist m n e E M x (5 * a + 1) + kGDist m n e E M x (5 * a + 2) + kGDist m n e E M x (5 * a + 3) +
      kGDist m n e E M x (5 * a + 4)) ≤ ∑ a ∈ range m.nids.length, A * contributionsKG m i (m.nids.getD a 0) := by
    refine sum_le_sum fun a _ => ?_
    have o0 := off a 0 (by norm_num) (by norm_num)
    rw [Nat.add_zero] at o0
    rw [o0, off a 1 (by norm_num) (by norm_num), off a 3 (by norm_num) (by norm_num), off a 4 (by norm_num) (by norm_num)]
    linarith [on a]
  refine step.trans ?_
  rw [nodes fun j => A * contributionsKG m i j, ← mul_sum]
  have s1 : ∑ j ∈ m.nids.toFinset, (contributionsKG m i j : ℝ) ≤ 4 * c := by
    have := contributionsKG_sum w hp hv hi
    rw [hc]
    exact_mod_cast this
  refine (mul_le_mul_of_nonneg_left s1 hA).trans (le_of_eq ?_)
  unfold kGRowErr
  have hcc : (3 * (v:ℝ) + rimCount m) = c := by rw [hc]; push_cast; ring
  rw [hcc, hAd]
  ring
end

variable {f : Fmt} {m : Mesh} {pn : Bool} {method : String} {al : ℝ} {fa : Bool} {P : ℕ → ℕ → ℝ} {p E0 M0 E M : ℝ}

section
variable (hr : Reachable m) (hg : GoodPlate m pn) (h : StiffWithin f m pn method al fa P E0 M0 E M) (hsym : ∀ r s, P r s = P s r) (hP : ∀ r < 5, ∀ s < 5, P r s ≤ p) (h0 : 0 ≤ p)
  (hE0 : 0 ≤ E0) (hM0 : 0 ≤ M0) (hE : 0 ≤ E) (hM : 0 ≤ M) {v : ℕ} (hv : Valence m v) {K : Mat} (hK : Stiffness m pn method al fa K) {F : FMat}
  (hF : FmtAssembled f m pn method al fa F) {d d' : List ℝ} {n e EG MG : ℝ} (hn : 0 ≤ n) (he : 0 ≤ e) (hEG : 0 ≤ EG) (hMG : 0 ≤ MG) (hkg : KGNear f m pn d d' n e EG MG)
  {G : Mat} (hG : calcKG (calcK0 m pn).1 d pn = .ok G) {G' : FMat} (hG' : f.calcKG (f.calcK0 m pn).1 (f.calcK0 m pn).2.1 d' pn = .ok G')

section
include hr hg hv hn he hEG hMG hkg hG hG'

private theorem kG_parts : (∀ x < 5 * m.nids.length, ∀ y < 5 * m.nids.length, |(numbers G').get x y - G.get x y| ≤ kGDist m n e EG MG x y) ∧
    ∀ x < 5 * m.nids.length, ∑ y ∈ range (5 * m.nids.length), kGDist m n e EG MG x y ≤ kGRowErr n e EG MG v (rimCount m) := by
  obtain ⟨A, B, a1, b1, _, hb⟩ := hkg
  obtain rfl := Except.ok.inj (hG.symm.trans a1)
  obtain rfl := Except.ok.inj (hG'.symm.trans b1)
  refine ⟨fun x hx y hy => ?_, fun x hx => kGDist_row hr.wf hg.proper hv hn he hEG hMG hx⟩
  obtain ⟨i, hi, ei, ex⟩ := nids_at hr.wf hx
  obtain ⟨j, hj, ej, ey⟩ := nids_at hr.wf hy
  obtain ⟨z, z1, z2⟩ := hb i hi j hj (x % 5) (Nat.mod_lt _ (by norm_num)) (y % 5) (Nat.mod_lt _ (by norm_num))
  unfold dofNo at z1 z2
  rw [← ex, ← ey] at z1 z2
  have : (numbers G').get x y = z := by simp only [numbers, z1]
  rw [this]
  unfold kGDist
  rw [ei, ej]
  exact z2
end

include hr hg h hsym hP h0 hE0 hM0 hE hM hv hK hF hn he hEG hMG hkg hG hG'

variable {S : Set ℕ} {c : ℝ} (hc0 : 0 < c) (hc : StiffAtLeast K S c)
include hc0 hc

/-- C161: every computed buckling factor is close to an exact one. Let `l`, `x` be a factor and mode of the computed matrices, possibly complex, up to a residual of `ε` times
the length of `x`. As long as the errors `rowErr + |l| kGRowErr + ε` are less than the smallest stiffness `c`, there is an exact factor within this fraction of `c`. -/
theorem C161_factor {l : ℂ} {x : ℕ → ℂ} {ε : ℝ} (hε : 0 ≤ ε) (hx : ModeResidual (numbers F) (numbers G') S l x ε)
    (hlt : rowErr p E0 M0 E M v (rimCount m) + ‖l‖ * kGRowErr n e EG MG v (rimCount m) + ε < c) :
    ∃ (l' : ℝ) (y : ℕ → ℝ), BucklingMode K G S l' y ∧ c * ‖l - l'‖ ≤ |l'| * (rowErr p E0 M0 E M v (rimCount m) + ‖l‖ * kGRowErr n e EG MG v (rimCount m) + ε) := by
  obtain ⟨hd, hA, hk, hrow⟩ := static_parts hr hg.proper h hP h0 hE0 hM0 hE hM hv hK.2 hF
  obtain ⟨hdim, _⟩ := stiffness_energy hr hg hK
  obtain ⟨hk2, hrow2⟩ := kG_parts hr hg hv hn he hEG hMG hkg hG hG'
  have hF5 : F.dim = 5 * m.nids.length := by rw [← hd]; exact hdim
  rw [← hF5] at hk2 hrow2
  obtain ⟨x0, xS, xr⟩ := hx
  have xr' : √(freeSq F.dim S fun i => ‖∑ j ∈ range F.dim, (((numbers F).get i j : ℂ) + l * ((numbers G').get i j : ℂ)) * x j‖) ≤ ε * len F.dim fun i => ‖x i‖ := by
    refine (Real.sqrt_le_sqrt xr).trans (le_of_eq ?_)
    rw [Real.sqrt_mul (sq_nonneg _), Real.sqrt_sq hε]; rfl
  have hres := err_residual hk hk2 (stiffErr_comm m hsym E0 M0 E M) (kGDist_comm m n e EG MG) hrow hrow2 xr'
  have hS : Stable K S := stable_of_atLeast hc0 hc
  have hsK := C78_symmetric hr hg hK
  unfold Stable at hS
  rw [hd] at hsK hS
  obtain ⟨_, q, μ, hm⟩ := modal_exists hsK (fun i _ j _ => (C30_symmetric hG).1 i j) S hS
  unfold StiffAtLeast at hc
  rw [hd] at hc
  have hη : 0 ≤ rowErr p E0 M0 E M v (rimCount m) + ‖l‖ * kGRowErr n e EG MG v (rimCount m) + ε := by
    have : 0 ≤ rowErr p E0 M0 E M v (rimCount m) := by unfold rowErr; positivity
    have : 0 ≤ kGRowErr n e EG MG v (rimCount m) := by unfold kGRowErr; positivity
    positivity
  obtain ⟨a, ha⟩ := hm.near hc0 hc x0 xS hη hres
  generalize rowErr p E0 M0 E M v (rimCount m) + ‖l‖ * kGRowErr n e EG MG v (rimCount m) + ε = η at *
  have hμ : μ a ≠ 0 := by
    intro h0
    rw [h0] at ha
    simp at ha
    linarith
  refine ⟨-1 / μ a, q a, ?_, ?_⟩
  · unfold BucklingMode
    rw [hd]
    refine ⟨hm.nonzero a, hm.sup a, fun i hi hiS => ?_⟩
    have h1 := hm.row a hi hiS
    have : ∑ j ∈ range F.dim, (K.get i j + -1 / μ a * G.get i j) * q a j = ∑ j ∈ range F.dim, K.get i j * q a j + -1 / μ a * ∑ j ∈ range F.dim, G.get i j * q a j := by
      rw [mul_sum, ← sum_add_distrib]; exact sum_congr rfl fun j _ => by ring
    rw [this, h1]
    field_simp
    ring
  · have e1 : l - ((-1 / μ a : ℝ) : ℂ) = (1 + l * μ a) * ((1 / μ a : ℝ) : ℂ) := by
      have : (μ a : ℂ) ≠ 0 := by exact_mod_cast hμ
      push_cast
      field_simp
      ring
    rw [e1, norm_mul, Complex.norm_real, Real.norm_eq_abs, show |-1 / μ a| = |1 / μ a| by rw [neg_div, abs_neg]]
    have := mul_le_mul_of_nonneg_right ha (abs_nonneg (1 / μ a))
    linarith

/-- C161: the limit of stability. Let `c1` be the first buckling factor. At load levels `t` with `t / c1 + (rowErr + t kGRowErr) / c < 1` the computed matrices are positive
definite; and if they are nowhere negative, `t / c1` is at most `1 + (rowErr + t kGRowErr) / c`. -/
theorem C161_limit {c1 : ℝ} (hc1 : 0 < c1) {y : ℕ → ℝ} (hy : BucklingMode K G S c1 y) (hmin : ∀ c' x, 0 < c' → BucklingMode K G S c' x → c1 ≤ c') {t : ℝ} (ht : 0 ≤ t) :
    (t / c1 + (rowErr p E0 M0 E M v (rimCount m) + t * kGRowErr n e EG MG v (rimCount m)) / c < 1 →
      ∀ u, Supported F.dim S u → (∃ i < F.dim, u i ≠ 0) → 0 < form F.dim (fun i j => (numbers F).get i j + t * (numbers G').get i j) u u) ∧
    ((∀ u, Supported F.dim S u → 0 ≤ form F.dim (fun i j => (numbers F).get i j + t * (numbers G').get i j) u u) →
      t / c1 ≤ 1 + (rowErr p E0 M0 E M v (rimCount m) + t * kGRowErr n e EG MG v (rimCount m)) / c) := by
  obtain ⟨hd, hA, hk, hrow⟩ := static_parts hr hg.proper h hP h0 hE0 hM0 hE hM hv hK.2 hF
  obtain ⟨hdim, _⟩ := stiffness_energy hr hg hK
  obtain ⟨hk2, hrow2⟩ := kG_parts hr hg hv hn he hEG hMG hkg hG hG'
  have hF5 : F.dim = 5 * m.nids.length := by rw [← hd]; exact hdim
  rw [← hF5] at hk2 hrow2
  have lev := err_level hk hk2 (stiffErr_comm m hsym E0 M0 E M) (kGDist_comm m n e EG MG) hrow hrow2 t ht
  have hS : Stable K S := stable_of_atLeast hc0 hc
  have hη : 0 ≤ rowErr p E0 M0 E M v (rimCount m) + t * kGRowErr n e EG MG v (rimCount m) := by
    have : 0 ≤ rowErr p E0 M0 E M v (rimCount m) := by unfold rowErr; positivity
    have : 0 ≤ kGRowErr n e EG MG v (rimCount m) := by unfold kGRowErr; positivity
    positivity
  generalize rowErr p E0 M0 E M v (rimCount m) + t * kGRowErr n e EG MG v (rimCount m) = η at *
  have up : ∀ u, Supported F.dim S u → η * sqLen F.dim u ≤ η / c * form F.dim K.get u u := by
    intro u hu
    have h1 := hc u (by rw [hd]; exact hu)
    rw [hd] at h1
    have h2 := mul_le_mul_of_nonneg_left h1 (div_nonneg hη hc0.le)
    calc η * sqLen F.dim u = η / c * (c * sqLen F.dim u) := by field_simp
      _ ≤ _ := h2
  refine ⟨fun hlt u hu hne => ?_, fun hpos => ?_⟩
  · rw [form_one_add]
    have h1 := (abs_le.1 (lev u)).1
    have h2 := up u hu
    have hu' : Supported K.dim S u := by rw [hd]; exact hu
    have h3 : 0 < form F.dim K.get u u := by
      have := hS u hu' (by rw [hd]; exact hne)
      rwa [hd] at this
    -- the pre-stress takes at most 1 / c1 of the energy
    have h4 : -(form F.dim K.get u u / c1) ≤ form F.dim G.get u u := by
      by_contra hcon
      push Not at hcon
      have hneg : form K.dim G.get u u < 0 := by
        rw [hd]
        have : 0 < form F.dim K.get u u / c1 := div_pos h3 hc1
        linarith
      obtain ⟨c', k1, ⟨z, k2⟩, _, k4⟩ := C86_first hr hg hK hS hG hu' hneg
      have k5 := hmin c' z k1 k2
      have k6 := k5.trans k4
      rw [hd] at k6 hneg
      rw [le_div_iff₀ (by linarith)] at k6
      have : form F.dim K.get u u / c1 < - form F.dim G.get u u := by linarith
      rw [div_lt_iff₀ hc1] at this
      linarith
    have h5 := mul_le_mul_of_nonneg_left h4 ht
    have h6 : t * -(form F.dim K.get u u / c1) = - (t / c1 * form F.dim K.get u u) := by ring
    rw [h6] at h5
    have h7 : 0 < (1 - (t / c1 + η / c)) * form F.dim K.get u u := mul_pos (by linarith) h3
    linarith
  · have hy' : Supported F.dim S y := by rw [← hd]; exact hy.2.1
    have h1 := hpos y hy'
    rw [form_one_add] at h1
    have h2 := (abs_le.1 (lev y)).2
    have h3 := up y hy'
    have h4 : 0 < form F.dim K.get y y := by
      have := hS y hy.2.1 hy.1
      rwa [hd] at this
    have h5 := mode_form hy hy.2.1
    rw [hd] at h5
    have h6 : form F.dim G.get y y = -(form F.dim K.get y y / c1) := by
      have : form F.dim G.get y y * c1 = - form F.dim K.get y y := by linarith
      rw [eq_comm, ← neg_div, div_eq_iff hc1.ne']
      linarith
    rw [h6] at h2
    have h7 : 0 ≤ (1 + η / c - t / c1) * form F.dim K.get y y := by
      have : t * -(form F.dim K.get y y / c1) = - (t / c1 * form F.dim K.get y y) := by ring
      rw [this] at h2
      linarith
    have := nonneg_of_mul_nonneg_left h7 h4
    linarith

end

theorem abs_le_len {n i : ℕ} (hi : i < n) (z : ℕ → ℝ) : |z i| ≤ len n z := by
  refine Real.abs_le_sqrt ?_
  exact single_le_sum (f := fun i => z i ^ 2) (fun _ _ => sq_nonneg _) (mem_range.2 hi)

/-- C161: short vectors are small displacements -/
theorem C161_loaded (hr : Reachable m) (hp : Proper m) {σ B l a b e : ℝ} (hl : Medium l) (hfit : ∀ t ∈ m.eids, FitsAt m σ B l t) (ha : 0 < a) (hb : 0 < b) {z : ℕ → ℝ}
    (h1 : 1024 * a * len (5 * m.nids.length) z ≤ e * l) (h2 : 1024 * b * len (5 * m.nids.length) z ≤ e * l) : Loaded m σ B a b e z := by
  intro k hk
  refine ⟨l, hl, fun t ht => hfit t (trias_mem hr.wf hp hk ht), fun i hi => ?_⟩
  have hlt : ∀ r < 5, dofNo m i r < 5 * m.nids.length := fun r hr => by
    have := List.idxOf_lt_length_of_mem hi
    unfold dofNo
    omega
  refine ⟨fun r hr => ?_, fun r hr => ?_⟩
  · rw [le_div_iff₀ (by positivity)]
    have := mul_le_mul_of_nonneg_left (abs_le_len (hlt r (by omega)) z) (by positivity : 0 ≤ 1024 * a)
    linarith
  · rw [le_div_iff₀ (by positivity)]
    have := mul_le_mul_of_nonneg_left (abs_le_len (hlt r (by omega)) z) (by positivity : 0 ≤ 1024 * b)
    linarith

section
variable (hr : Reachable m) (hg : GoodPlate m pn) (h : StiffWithin f m pn method al fa P E0 M0 E M) (hsym : ∀ r s, P r s = P s r) (hP : ∀ r < 5, ∀ s < 5, P r s ≤ p)
  (h0 : 0 ≤ p) (hE0 : 0 ≤ E0) (hM0 : 0 ≤ M0) (hE : 0 ≤ E) (hM : 0 ≤ M) {v : ℕ} (hv : Valence m v) {K : Mat} (hK : Stiffness m pn method al fa K) {F : FMat}
  (hF : FmtAssembled f m pn method al fa F) {S : Set ℕ} {c : ℝ} (hc : StiffAtLeast K S c) (hlt : rowErr p E0 M0 E M v (rimCount m) < c)
include hr hg h hsym hP h0 hE0 hM0 hE hM hv hK hF hc hlt

/-- C161: the static solution of the computed equations, as input of `calc_kG` -/
theorem C161_static {σ B l a b e : ℝ} (hl : Medium l) (hfit : ∀ t ∈ m.eids, FitsAt m σ B l t) (ha : 0 < a) (hb : 0 < b) {g r d d' : ℕ → ℝ} (hd : StaticSol K S g d)
    (hd' : StaticSol (numbers F) S (fun i => g i + r i) d')
    (h1 : 1024 * a * (rowErr p E0 M0 E M v (rimCount m) * len F.dim d + √(freeSq F.dim S r)) ≤ e * l * (c - rowErr p E0 M0 E M v (rimCount m)))
    (h2 : 1024 * b * (rowErr p E0 M0 E M v (rimCount m) * len F.dim d + √(freeSq F.dim S r)) ≤ e * l * (c - rowErr p E0 M0 E M v (rimCount m))) :
    Loaded m σ B a b e fun i => d' i - d i := by
  have hs := C159_static hr hg.proper h hsym hP h0 hE0 hM0 hE hM hv hK.2 hF hc hd hd'
  obtain ⟨hdd, _⟩ := static_parts hr hg.proper h hP h0 hE0 hM0 hE hM hv hK.2 hF
  obtain ⟨hdim, _⟩ := stiffness_energy hr hg hK
  have hF5 : F.dim = 5 * m.nids.length := by rw [← hdd]; exact hdim
  rw [hF5] at hs h1 h2
  have h3 : 0 < c - rowErr p E0 M0 E M v (rimCount m) := sub_pos.2 hlt
  generalize rowErr p E0 M0 E M v (rimCount m) = D at *
  refine C161_loaded hr hg.proper hl hfit ha hb (le_of_mul_le_mul_left ?_ h3) (le_of_mul_le_mul_left ?_ h3)
  · have := mul_le_mul_of_nonneg_left hs (by positivity : 0 ≤ 1024 * a)
    linarith
  · have := mul_le_mul_of_nonneg_left hs (by positivity : 0 ≤ 1024 * b)
    linarith
end

/-! The square of two triangles, shortened in `x`, with free deflections of the nodes 2 and 3. -/

/-- all freedoms but the deflections of the nodes 2 and 3 -/
def exHeldW : Set ℕ := {i | i ≠ 7 ∧ i ≠ 12}

/-- the displacement `u = -x / 1024` -/
noncomputable def exShort : List ℝ := [0, 0, 0, 0, 0, -1 / 1024, 0, 0, 0, 0, -1 / 1024, 0, 0, 0, 0, 0, 0, 0, 0, 0]

theorem exSq_shearMod (pn : Bool) {e : ℕ} (he : e = 1 ∨ e = 2) (r : Fin 2) : shearMod exSq pn (1 / 10) true e r = 20 / 21 := by
  have ht : triArea exSq e = 1 / 2 := by
    rcases he with rfl | rfl <;> simp only [triArea, sarea3, exMesh_tria1, exMesh_tria2, mean_single, nx, ny, exMesh_node1, exMesh_node2, exMesh_node3, exMesh_node4] <;> norm_num
  have hc : ∀ sel : Lam → ℝ, cavg exSq pn e sel = sel exIso := by
    intro sel
    have hH := exMesh_Homog exIso pn
    unfold Homog at hH
    rw [exMesh_nids, exMesh_eids] at hH
    cases pn with
    | true =>
      simp only [if_true] at hH
      rcases he with rfl | rfl <;> simp [cavg, ofProp, corners, mean, exMesh_tria1, exMesh_tria2, hH] <;> ring
    | false =>
      simp only [Bool.false_eq_true, if_false] at hH
      rcases he with rfl | rfl <;> simp [cavg, ofProp, hH]
  unfold shearMod charLen
  simp only [hc, if_true]
  rw [Real.sq_sqrt (by rw [ht]; norm_num), ht]
  fin_cases r <;> simp [exIso, exLam] <;> norm_num

theorem exSq_shearW (pn : Bool) {z : ℕ → ℝ} (hz : Supported 20 exHeldW z) :
    shearEnergy exSq pn (1 / 10) true (methodGamma exSq "cell-based-no-smoothing") z z = 10 / 21 * (z 7 ^ 2 + (z 12 - z 7) ^ 2 + z 12 ^ 2) := by
  have zz : ∀ i < 20, i ≠ 7 → i ≠ 12 → z i = 0 := fun i hi a b => hz i hi ⟨a, b⟩
  have n1 : List.idxOf 1 [1, 2, 3, 4] = 0 := by decide
  have n2 : List.idxOf 2 [1, 2, 3, 4] = 1 := by decide
  have n3 : List.idxOf 3 [1, 2, 3, 4] = 2 := by decide
  have n4 : List.idxOf 4 [1, 2, 3, 4] = 3 := by decide
  have ht : ∀ e, e = 1 ∨ e = 2 → triArea exSq e = 1 / 2 := by
    rintro e (rfl | rfl) <;> simp only [triArea, sarea3, exMesh_tria1, exMesh_tria2, mean_single, nx, ny, exMesh_node1, exMesh_node2, exMesh_node3, exMesh_node4] <;> norm_num
  unfold shearEnergy methodGamma
  rw [if_neg (by decide), exMesh_eids]
  simp only [List.map_cons, List.map_nil, List.sum_cons, List.sum_nil, exSq_shearMod pn (Or.inl rfl), exSq_shearMod pn (Or.inr rfl), ht 1 (Or.inl rfl), ht 2 (Or.inr rfl)]
  have q2 := zz 2 (by norm_num) (by norm_num) (by norm_num)
  have q3 := zz 3 (by norm_num) (by norm_num) (by norm_num)
  have q4 := zz 4 (by norm_num) (by norm_num) (by norm_num)
  have q8 := zz 8 (by norm_num) (by norm_num) (by norm_num)
  have q9 := zz 9 (by norm_num) (by norm_num) (by norm_num)
  have q13 := zz 13 (by norm_num) (by norm_num) (by norm_num)
  have q14 := zz 14 (by norm_num) (by norm_num) (by norm_num)
  have q17 := zz 17 (by norm_num) (by norm_num) (by norm_num)
  have q18 := zz 18 (by norm_num) (by norm_num) (by norm_num)
  have q19 := zz 19 (by norm_num) (by norm_num) (by norm_num)
  have s1 : sarea exSq (tpoly exSq 1) = 1 / 2 := by
    simp [tpoly, sarea, sides, mean, nx, ny, exMesh_tria1, exMesh_node1, exMesh_node2, exMesh_node3]
  have s2 : sarea exSq (tpoly exSq 2) = 1 / 2 := by
    simp [tpoly, sarea, sides, mean, nx, ny, exMesh_tria2, exMesh_node1, exMesh_node4, exMesh_node3]
  have p1 : sarea exSq [[1], [2], [3]] = 1 / 2 := by have := s1; rw [tpoly, exMesh_tria1] at this; exact this
  have p2 : sarea exSq [[1], [3], [4]] = 1 / 2 := by have := s2; rw [tpoly, exMesh_tria2] at this; exact this
  have g1 : wholeGamma exSq 1 z = ![z 7, z 12 - z 7] := by
    unfold wholeGamma
    dsimp only
    rw [s1, if_pos (by norm_num), exMesh_tria1]
    simp only [dsg, gap, mean_single, p1, disp, exMesh_nids, n1, n2, n3, nx, ny, exMesh_node1, exMesh_node2, exMesh_node3]
    norm_num [q2, q3, q4, q8, q9, q13, q14]
  have g2 : wholeGamma exSq 2 z = ![z 12, 0] := by
    unfold wholeGamma
    dsimp only
    rw [s2, if_pos (by norm_num), exMesh_tria2]
    simp only [dsg, gap, mean_single, p2, disp, exMesh_nids, n1, n3, n4, nx, ny, exMesh_node1, exMesh_node4, exMesh_node3]
    norm_num [q2, q3, q4, q13, q14, q17, q18, q19]
  rw [g1, g2]
  simp
  ring

theorem exSq_energyW (pn : Bool) {z : ℕ → ℝ} (hz : Supported 20 exHeldW z) : energy exSq pn z z = 0 := by
  have zz : ∀ i < 20, i ≠ 7 → i ≠ 12 → z i = 0 := fun i hi a b => hz i hi ⟨a, b⟩
  have n1 : List.idxOf 1 [1, 2, 3, 4] = 0 := by decide
  have n2 : List.idxOf 2 [1, 2, 3, 4] = 1 := by decide
  have n3 : List.idxOf 3 [1, 2, 3, 4] = 2 := by decide
  have n4 : List.idxOf 4 [1, 2, 3, 4] = 3 := by decide
  have hd : ∀ r < 5, r ≠ 2 → ∀ i ∈ exSq.nids, disp exSq z r i = 0 := by
    intro r hr h2 i hi
    rw [exMesh_nids] at hi
    simp only [List.mem_cons, List.not_mem_nil, or_false] at hi
    unfold disp
    rw [exMesh_nids]
    rcases hi with rfl | rfl | rfl | rfl <;> simp only [n1, n2, n3, n4] <;> exact zz _ (by omega) (by omega) (by omega)
  have w := (exMesh_reachable exIso exIso exIso exIso exIso exIso).wf
  have gz : ∀ P : List (List ℕ), gradX exSq P (fun _ => 0) = 0 ∧ gradY exSq P (fun _ => 0) = 0 := fun P => by
    constructor <;> simp [gradX, gradY, circDy, circDx, mean]
  refine energy_zero_right fun k hk => ?_
  have g : ∀ r < 5, r ≠ 2 → gradX exSq (dom exSq k) (disp exSq z r) = 0 ∧ gradY exSq (dom exSq k) (disp exSq z r) = 0 := by
    intro r hr h2
    have := domGrad_congr w (exMesh_proper ..) hk (f := disp exSq z r) (g := fun _ => 0) fun t ht i hi =>
      hd r hr h2 i (corner_mem w (exMesh_proper exIso exIso exIso exIso exIso exIso).distinct (trias_mem w (exMesh_proper ..) hk ht) hi)
    rw [this.1, this.2]
    exact gz _
  unfold eps
  rw [(g 0 (by norm_num) (by norm_num)).1, (g 0 (by norm_num) (by norm_num)).2, (g 1 (by norm_num) (by norm_num)).1, (g 1 (by norm_num) (by norm_num)).2,
    (g 3 (by norm_num) (by norm_num)).1, (g 3 (by norm_num) (by norm_num)).2, (g 4 (by norm_num) (by norm_num)).1, (g 4 (by norm_num) (by norm_num)).2]
  funext r
  fin_cases r <;> simp

theorem exSq_formW {pn : Bool} {K : Mat} (hK : Stiffness exSq pn "cell-based-no-smoothing" (1 / 10) true K) {z : ℕ → ℝ} (hz : Supported 20 exHeldW z) :
    form K.dim K.get z z = 10 / 21 * (z 7 ^ 2 + (z 12 - z 7) ^ 2 + z 12 ^ 2) := by
  obtain ⟨_, _, hs⟩ := stiffness_split (exMesh_reachable exIso exIso exIso exIso exIso exIso) (exSq_good pn) hK
  rw [hs, exSq_energyW pn hz, exSq_shearW pn hz, zero_add]

theorem exSq_stiffW {pn : Bool} {K : Mat} (hK : Stiffness exSq pn "cell-based-no-smoothing" (1 / 10) true K) : StiffAtLeast K exHeldW (10 / 21) := by
  have hd : K.dim = 20 := by rw [(stiffness_split (exMesh_reachable exIso exIso exIso exIso exIso exIso) (exSq_good pn) hK).1, exMesh_nids]; rfl
  intro z hz
  rw [hd] at hz
  rw [exSq_formW hK hz, hd]
  have zz : ∀ i < 20, i ≠ 7 → i ≠ 12 → z i = 0 := fun i hi a b => hz i hi ⟨a, b⟩
  have : sqLen 20 z = z 7 ^ 2 + z 12 ^ 2 := by simp [sqLen, sum_range_succ, zz]
  rw [this]
  nlinarith [sq_nonneg (z 12 - z 7)]

theorem kGRowErr_mono {n e E M : ℝ} (hn : 0 ≤ n) (he : 0 ≤ e) (hE : 0 ≤ E) (hM : 0 ≤ M) {v b b' : ℕ} (h : b ≤ b') : kGRowErr n e E M v b ≤ kGRowErr n e E M v b' := by
  unfold kGRowErr
  have : (b:ℝ) ≤ b' := by exact_mod_cast h
  gcongr

theorem exSq_kGRowErr : kGRowErr 1 (2 ^ (-100 : ℤ)) 990000000 12288 2 (rimCount exSq) ≤ 4 / 10 ^ 5 := by
  refine (kGRowErr_mono zero_le_one (by positivity) (by norm_num) (by norm_num) exSq_rim).trans ?_
  norm_num [kGRowErr, zpow_neg]

theorem exShort_near (pn : Bool) : KGNear Fmt.binary64 exSq pn exShort exShort 1 (2 ^ (-100 : ℤ)) 990000000 12288 := by
  refine C160_kG_near_8 C153_binary64 (exMesh_reachable exIso exIso exIso exIso exIso exIso) (exMesh_proper ..) (exMesh_planar ..)
    (exMesh_props _ _ _ _ _ _ pn) (by rw [exMesh_nids]; simp) medium_one medium_one medium_one (exSq_upTo pn) (by rw [exMesh_ekeys]; norm_num)
    (by rw [exMesh_nids]; rfl) (by rw [exMesh_nids]; rfl) ⟨le_rfl, zpow_le_zpow_right₀ (by norm_num) (by norm_num)⟩ (exSq_loaded (by norm_num) (by norm_num) fun i hi r hr h2 => ?_)
    (exSq_loaded (by norm_num) (by norm_num) fun i hi r hr h2 => ?_)
  · rw [exMesh_nids] at hi
    simp only [List.mem_cons, List.not_mem_nil, or_false] at hi
    have hn : exSq.nids = [1, 2, 3, 4] := exMesh_nids ..
    unfold dofNo
    rw [hn]
    interval_cases r <;> rcases hi with rfl | rfl | rfl | rfl <;> simp [vec, exShort] <;> norm_num [abs_of_nonneg] at *
  · rw [sub_self, abs_zero]; positivity

/-- C161: the shortened square in double precision. There is a first buckling factor below 1000. It solves the computed equations up to a residual of 1/20, and every factor up to
1100 of the computed matrices, up to a residual of 1/1000, is within a tenth of an exact one. Up to nine tenths of the first factor the computed matrices are positive definite. -/
example (pn : Bool) : ∃ (K G : Mat) (F G' : FMat) (c1 : ℝ) (y : ℕ → ℝ), Stiffness exSq pn "cell-based-no-smoothing" (1 / 10) true K ∧
    FmtAssembled Fmt.binary64 exSq pn "cell-based-no-smoothing" (1 / 10) true F ∧ calcKG (calcK0 exSq pn).1 exShort pn = .ok G ∧
    Fmt.binary64.calcKG (Fmt.binary64.calcK0 exSq pn).1 (Fmt.binary64.calcK0 exSq pn).2.1 exShort pn = .ok G' ∧ 0 < c1 ∧ c1 ≤ 1000 ∧ BucklingMode K G exHeldW c1 y ∧
    ModeResidual (numbers F) (numbers G') exHeldW c1 (fun i => (y i : ℂ)) (1 / 20) ∧
    (∀ q x, ‖q‖ ≤ 1100 → ModeResidual (numbers F) (numbers G') exHeldW q x (1 / 1000) → ∃ q' y', BucklingMode K G exHeldW q' y' ∧ ‖q - q'‖ ≤ |q'| / 10) ∧
    ∀ t, 0 ≤ t → t ≤ 9 / 10 * c1 → ∀ u, Supported F.dim exHeldW u → (∃ i < F.dim, u i ≠ 0) → 0 < form F.dim (fun i j => (numbers F).get i j + t * (numbers G').get i j) u u := by
  have h := exSq_stiffWithin pn true
  obtain ⟨K, F, hK, hF, _⟩ := id h
  have hK : Stiffness exSq pn "cell-based-no-smoothing" (1 / 10) true K := ⟨Or.inr rfl, hK⟩
  have hr := exMesh_reachable exIso exIso exIso exIso exIso exIso
  have hnear := exShort_near pn
  obtain ⟨G, G', hG, hG', _⟩ := id hnear
  have hc := exSq_stiffW hK
  have hS := stable_of_atLeast (by norm_num) hc
  have hD := exSq_rowErr
  have hΓ := exSq_kGRowErr
  have hΓ0 : 0 ≤ kGRowErr 1 (2 ^ (-100 : ℤ)) 990000000 12288 2 (rimCount exSq) := by unfold kGRowErr; positivity
  have hd : K.dim = 20 := by rw [(stiffness_split hr (exSq_good pn) hK).1, exMesh_nids]; rfl
  obtain ⟨hdF, _, hk, hrow⟩ := static_parts hr (exSq_good pn).proper h (fun _ _ _ _ => le_rfl) zero_le_one (by norm_num) (by norm_num) (by norm_num) (by norm_num) exSq_valence hK.2 hF
  have hF20 : F.dim = 20 := hdF ▸ hd
  have slope : Supported 20 exHeldW exSlope := fun i _ hi => if_neg fun hh => by rcases hh with hh | hh; exacts [hi.1 hh, hi.2 hh]
  obtain ⟨G1, hG1, hw⟩ := exSq_work pn (-1 / 1024)
  obtain rfl : G1 = G := Except.ok.inj (hG1.symm.trans hG)
  have hneg : form K.dim G1.get exSlope exSlope < 0 := by rw [hd, hw]; norm_num
  obtain ⟨c1, p1, ⟨y, hy⟩, hmin, hle⟩ := C86_first hr (exSq_good pn) hK hS hG (hd ▸ slope) hneg
  have hc1 : c1 ≤ 1000 := by
    refine hle.trans ?_
    rw [exSq_formW hK slope, hd, hw]
    norm_num [exSlope]
  refine ⟨K, G1, F, G', c1, y, hK, hF, hG, hG', p1, hc1, hy, ?_, fun q x hq hx => ?_, fun t ht htc => ?_⟩
  · obtain ⟨hk2, hrow2⟩ := kG_parts hr (exSq_good pn) exSq_valence zero_le_one (by positivity) (by norm_num) (by norm_num) hnear hG hG'
    rw [exMesh_nids, show 5 * [1, 2, 3, 4].length = F.dim from hF20.symm] at hk2 hrow2
    have hk' : ∀ x < F.dim, ∀ z < F.dim, |K.get x z - (numbers F).get x z| ≤ stiffErr exSq (fun _ _ => 1) 470000000 6144 40000 8 x z := fun x hx z hz => by rw [abs_sub_comm]; exact hk x hx z hz
    have hk2' : ∀ x < F.dim, ∀ z < F.dim, |G1.get x z - (numbers G').get x z| ≤ kGDist exSq 1 (2 ^ (-100 : ℤ)) 990000000 12288 x z := fun x hx z hz => by rw [abs_sub_comm]; exact hk2 x hx z hz
    have z0 : √(freeSq F.dim exHeldW fun i => ‖∑ j ∈ range F.dim, ((K.get i j : ℂ) + (c1 : ℂ) * (G1.get i j : ℂ)) * (y j : ℂ)‖) ≤ 0 * len F.dim fun i => ‖(y i : ℂ)‖ := by
      rw [zero_mul]
      refine le_of_eq ((Real.sqrt_eq_zero (sum_nonneg fun _ _ => sq_nonneg _)).2 (sum_eq_zero fun i hi => ?_))
      by_cases hS : i ∈ exHeldW
      · simp [hS]
      · rw [Set.indicator_of_mem (by simpa using hS)]
        have := hy.2.2 i (hdF ▸ mem_range.1 hi) hS
        rw [hdF] at this
        have e : ∑ j ∈ range F.dim, ((K.get i j : ℂ) + (c1 : ℂ) * (G1.get i j : ℂ)) * (y j : ℂ) = ((∑ j ∈ range F.dim, (K.get i j + c1 * G1.get i j) * y j : ℝ) : ℂ) := by push_cast; rfl
        rw [e, this]; simp
    have hres := err_residual hk' hk2' (stiffErr_comm exSq (fun _ _ => rfl) _ _ _ _) (kGDist_comm exSq _ _ _ _) hrow hrow2 z0
    rw [Complex.norm_real, Real.norm_eq_abs, abs_of_pos p1, add_zero] at hres
    have h20 : rowErr 1 470000000 6144 40000 8 2 (rimCount exSq) + c1 * kGRowErr 1 (2 ^ (-100 : ℤ)) 990000000 12288 2 (rimCount exSq) ≤ 1 / 20 := by
      have := mul_le_mul hc1 hΓ hΓ0 (by norm_num)
      linarith
    have hres2 := hres.trans (mul_le_mul_of_nonneg_right h20 (len_nonneg _ _))
    refine ⟨by obtain ⟨i, hi, hne⟩ := hy.1; rw [hdF] at hi; exact ⟨i, hi, fun hz => hne (Complex.ofReal_eq_zero.1 hz)⟩,
      fun i hi hS => Complex.ofReal_eq_zero.2 (hy.2.1 i (by rw [hdF]; exact hi) hS), ?_⟩
    have sq := mul_le_mul hres2 hres2 (Real.sqrt_nonneg _) (mul_nonneg (by norm_num) (len_nonneg _ _))
    rw [Real.mul_self_sqrt (show 0 ≤ freeSq _ _ _ from sum_nonneg fun _ _ => sq_nonneg _)] at sq
    refine sq.trans (le_of_eq ?_)
    rw [show sqLen (numbers F).dim (fun i => ‖(y i : ℂ)‖) = _ from (len_mul_self F.dim fun i => ‖(y i : ℂ)‖).symm]
    ring
  · have hq0 : rowErr 1 470000000 6144 40000 8 2 (rimCount exSq) + ‖q‖ * kGRowErr 1 (2 ^ (-100 : ℤ)) 990000000 12288 2 (rimCount exSq) + 1 / 1000 ≤ 46 / 1000 := by
      have := mul_le_mul hq hΓ hΓ0 (by norm_num)
      linarith
    obtain ⟨q', y', h1, h2⟩ := C161_factor hr (exSq_good pn) h (fun _ _ => rfl) (fun _ _ _ _ => le_rfl) zero_le_one (by norm_num) (by norm_num) (by norm_num) (by norm_num) exSq_valence
      hK hF zero_le_one (by positivity) (by norm_num) (by norm_num) hnear hG hG' (by norm_num) hc (by norm_num) hx (hq0.trans_lt (by norm_num))
    refine ⟨q', y', h1, ?_⟩
    have := mul_le_mul_of_nonneg_left hq0 (abs_nonneg q')
    linarith [abs_nonneg q']
  · refine (C161_limit hr (exSq_good pn) h (fun _ _ => rfl) (fun _ _ _ _ => le_rfl) zero_le_one (by norm_num) (by norm_num) (by norm_num) (by norm_num) exSq_valence
      hK hF zero_le_one (by positivity) (by norm_num) (by norm_num) hnear hG hG' (by norm_num) hc p1 hy hmin ht).1 ?_
    have t1 : t / c1 ≤ 9 / 10 := by rw [div_le_iff₀ p1]; exact htc
    have := mul_le_mul (show t ≤ 900 by linarith) hΓ hΓ0 (by norm_num)
    linarith

/-- C161: the static step there: the computed displacements are within `e l / 1024`, `l = 1` -/
example (pn fa : Bool) (g : ℕ → ℝ) : ∃ K F, Assembled exSq pn "cell-based-no-smoothing" (1 / 10) fa K ∧ FmtAssembled Fmt.binary64 exSq pn "cell-based-no-smoothing" (1 / 10) fa F ∧
    ∀ d d' e, StaticSol K exHeld3 g d → StaticSol (numbers F) exHeld3 g d' → 10 * len F.dim d ≤ e → Loaded exSq (1 / 4) 8 1 1 e fun i => d' i - d i := by
  have h := exSq_stiffWithin pn fa
  obtain ⟨K, F, hK, hF, _⟩ := id h
  have hD := exSq_rowErr
  refine ⟨K, F, hK, hF, fun d d' e hd hd' he => ?_⟩
  have hzr : √(freeSq F.dim exHeld3 fun _ => 0) = 0 := by simp [freeSq]
  have l0 : 0 ≤ len F.dim d := len_nonneg _ _
  have key : 1024 * 1 * (rowErr 1 470000000 6144 40000 8 2 (rimCount exSq) * len F.dim d + √(freeSq F.dim exHeld3 fun _ => 0)) ≤
      e * 1 * (1 / 6 - rowErr 1 470000000 6144 40000 8 2 (rimCount exSq)) := by
    rw [hzr]
    have a1 := mul_le_mul_of_nonneg_right hD l0
    have a2 : e * (1 / 6 - 1 / 1000) ≤ e * (1 / 6 - rowErr 1 470000000 6144 40000 8 2 (rimCount exSq)) := mul_le_mul_of_nonneg_left (by linarith) (by linarith)
    linarith
  exact C161_static (exMesh_reachable exIso exIso exIso exIso exIso exIso) (exSq_good pn) h (fun _ _ => rfl) (fun _ _ _ _ => le_rfl) zero_le_one (by norm_num) (by norm_num) (by norm_num)
    (by norm_num) exSq_valence ⟨Or.inr rfl, hK⟩ hF (exSq_stiffAtLeast hK) (hD.trans_lt (by norm_num)) medium_one (fun _ => exSq_fitsAt (by norm_num) (by norm_num)) one_pos one_pos hd
    (r := fun _ => 0) (by simpa using hd') key key

end Meshless
