import Verif.Lemmas.StiffErr
import Verif.Props.Static
import Verif.Props.Double

/-! The number of edges and triangles behind the entries in one row of the stiffness matrix (C159). -/

set_option autoImplicit false

namespace Meshless
open Spec Finset

open Classical in
theorem sum_pair {α : Type} (A : Finset α) (B : Finset ℕ) (R : α → ℕ → Prop) (i c : ℕ) (h : ∀ a ∈ A, R a i → (B.filter (R a)).card ≤ c) :
    ∑ j ∈ B, (A.filter fun a => R a i ∧ R a j).card ≤ c * (A.filter fun a => R a i).card := by
  simp only [card_filter]
  rw [sum_comm, mul_sum]
  refine sum_le_sum fun a ha => ?_
  by_cases hi : R a i
  · simp only [hi, true_and, if_true, mul_one]
    rw [← card_filter]
    exact h a ha hi
  · simp [hi]

theorem countP_card {α : Type} [DecidableEq α] {l : List α} (hl : l.Nodup) {p : α → Prop} {d1 d2 : DecidablePred p} :
    l.countP (fun a => @decide (p a) (d1 a)) = (@Finset.filter _ p d2 l.toFinset).card := by
  have : d1 = d2 := Subsingleton.elim _ _
  subst this
  rw [List.countP_eq_length_filter, ← List.toFinset_card_of_nodup (hl.filter _), List.toFinset_filter]
  simp

section
variable {m : Mesh} (w : WF m)
include w

theorem edge_third {k : Key} (hk : k ∈ m.ekeys) {t : ℕ} (ht : t ∈ (m.edge k).trias) : ∃ o, ∀ i, IsCorner m t i → i = k.1 ∨ i = k.2 ∨ i = o := by
  rw [w.etrias k hk, mem_sideTrias] at ht
  have h : ∀ a b c : ℕ, k = sortPair a b → ∀ i, i = a ∨ i = b ∨ i = c → i = k.1 ∨ i = k.2 ∨ i = c := by
    rintro a b c rfl i hi
    unfold sortPair
    split_ifs <;> tauto
  have he := ht.2
  simp only [Tria.edgeIds, List.mem_cons, List.not_mem_nil, or_false] at he
  unfold IsCorner
  rcases he with e | e | e
  · exact ⟨(m.tria t).n3, fun i hi => h _ _ _ e i hi⟩
  · exact ⟨(m.tria t).n1, fun i hi => h _ _ _ e i (by tauto)⟩
  · exact ⟨(m.tria t).n2, fun i hi => h _ _ _ e i (by tauto)⟩

theorem edge_four (hp : Proper m) {k : Key} (hk : k ∈ m.ekeys) : ∃ L : Finset ℕ, L.card ≤ 4 ∧ ∀ i, WritesK0 m k i → i ∈ L := by
  have hm := hp.manifold k hk
  rcases hl : (m.edge k).trias with _ | ⟨t, _ | ⟨t', _ | ⟨t'', ts⟩⟩⟩
  · refine ⟨∅, by simp, fun i hi => ?_⟩
    rcases hi with ⟨t, ht, _⟩ | ⟨h, _⟩
    · rw [hl] at ht; simp at ht
    · unfold OneTria at h; rw [hl] at h; simp at h
  · obtain ⟨o, ho⟩ := edge_third w hk (t := t) (by rw [hl]; simp)
    refine ⟨{k.1, k.2, o, (m.nids.getLast?).getD 0}, card_le_four, fun i hi => ?_⟩
    simp only [mem_insert, mem_singleton]
    rcases hi with ⟨s, hs, hc⟩ | ⟨_, h⟩
    · rw [hl] at hs
      obtain rfl := List.mem_singleton.1 hs
      have := ho i hc
      tauto
    · rw [h]; simp
  · obtain ⟨o, ho⟩ := edge_third w hk (t := t) (by rw [hl]; simp)
    obtain ⟨o', ho'⟩ := edge_third w hk (t := t') (by rw [hl]; simp)
    refine ⟨{k.1, k.2, o, o'}, card_le_four, fun i hi => ?_⟩
    simp only [mem_insert, mem_singleton]
    rcases hi with ⟨s, hs, hc⟩ | ⟨h, _⟩
    · rw [hl] at hs
      simp only [List.mem_cons, List.not_mem_nil, or_false] at hs
      rcases hs with rfl | rfl
      · have := ho i hc; tauto
      · have := ho' i hc; tauto
    · unfold OneTria at h; rw [hl] at h; simp at h
  · rw [hl] at hm; simp at hm

open Classical in
theorem edges_at (i : ℕ) : (m.ekeys.toFinset.filter fun k => AtEdge m k i).card ≤ 3 * (m.eids.toFinset.filter fun e => IsCorner m e i).card := by
  have : (m.ekeys.toFinset.filter fun k => AtEdge m k i) ⊆ (m.eids.toFinset.filter fun e => IsCorner m e i).biUnion fun e => (m.tria e).edgeIds.toFinset := by
    intro k hk
    simp only [mem_filter, List.mem_toFinset] at hk
    obtain ⟨hk, t, ht, hc⟩ := hk
    rw [w.etrias k hk, mem_sideTrias] at ht
    simp only [mem_biUnion, mem_filter, List.mem_toFinset]
    exact ⟨t, ⟨ht.1, hc⟩, ht.2⟩
  refine (card_le_card this).trans ?_
  rw [mul_comm]
  refine card_biUnion_le_card_mul _ _ _ fun e _ => ?_
  exact (List.toFinset_card_le _).trans (le_of_eq rfl)

open Classical in
theorem writes_at {v : ℕ} (hv : Valence m v) {i : ℕ} (hi : i ∈ m.nids) : (m.ekeys.toFinset.filter fun k => WritesK0 m k i).card ≤ 3 * v + rimCount m := by
  have : (m.ekeys.toFinset.filter fun k => WritesK0 m k i) ⊆ (m.ekeys.toFinset.filter fun k => AtEdge m k i) ∪ m.ekeys.toFinset.filter fun k => OneTria m k := by
    intro k hk
    simp only [mem_filter, mem_union] at hk ⊢
    obtain ⟨h1, h2 | h2⟩ := hk
    · exact Or.inl ⟨h1, h2⟩
    · exact Or.inr ⟨h1, h2.1⟩
  refine (card_le_card this).trans ((card_union_le _ _).trans (add_le_add ?_ (le_of_eq ?_)))
  · refine (edges_at w i).trans (Nat.mul_le_mul_left _ ?_)
    exact (countP_card w.eids_nodup).symm.le.trans (hv i hi)
  · unfold rimCount
    exact (countP_card w.ekeys_nodup).symm

open Classical in
theorem contributions_le {v : ℕ} (hv : Valence m v) {i : ℕ} (hi : i ∈ m.nids) (j : ℕ) : contributions m i j ≤ 3 * v + rimCount m := by
  unfold contributions
  refine (countP_card (d2 := fun k => Classical.propDecidable _) w.ekeys_nodup).le.trans ?_
  exact (card_le_card fun k hk => by simp only [mem_filter] at hk ⊢; exact ⟨hk.1, hk.2.1⟩).trans (writes_at w hv hi)

open Classical in
theorem contributions_sum (hp : Proper m) {v : ℕ} (hv : Valence m v) {i : ℕ} (hi : i ∈ m.nids) : ∑ j ∈ m.nids.toFinset, contributions m i j ≤ 4 * (3 * v + rimCount m) := by
  have e : ∀ j, contributions m i j = (m.ekeys.toFinset.filter fun k => WritesK0 m k i ∧ WritesK0 m k j).card := fun j => countP_card w.ekeys_nodup
  simp only [e]
  refine (sum_pair _ _ (WritesK0 m) i 4 fun k hk _ => ?_).trans (Nat.mul_le_mul_left _ (writes_at w hv hi))
  obtain ⟨L, h1, h2⟩ := edge_four w hp (List.mem_toFinset.1 hk)
  exact (card_le_card fun j hj => h2 j (mem_filter.1 hj).2).trans h1

open Classical in
/-- the triangles with both nodes as corners -/
theorem shearCount_le (i j r s : ℕ) : shearCount m i j r s ≤ (m.eids.toFinset.filter fun e => IsCorner m e i ∧ IsCorner m e j).card := by
  unfold shearCount
  split_ifs
  · exact Nat.zero_le _
  · exact (countP_card w.eids_nodup).le

open Classical in
theorem pairs_le {v : ℕ} (hv : Valence m v) {i : ℕ} (hi : i ∈ m.nids) (j : ℕ) : (m.eids.toFinset.filter fun e => IsCorner m e i ∧ IsCorner m e j).card ≤ v := by
  refine (card_le_card (t := m.eids.toFinset.filter fun e => IsCorner m e i) fun k hk => by simp only [mem_filter] at hk ⊢; exact ⟨hk.1, hk.2.1⟩).trans ?_
  exact (countP_card w.eids_nodup).symm.le.trans (hv i hi)

open Classical in
theorem pairs_sum {v : ℕ} (hv : Valence m v) {i : ℕ} (hi : i ∈ m.nids) :
    ∑ j ∈ m.nids.toFinset, (m.eids.toFinset.filter fun e => IsCorner m e i ∧ IsCorner m e j).card ≤ 3 * v := by
  refine (sum_pair _ _ (IsCorner m) i 3 fun e _ _ => ?_).trans (Nat.mul_le_mul_left _ ?_)
  · refine (card_le_card (t := {(m.tria e).n1, (m.tria e).n2, (m.tria e).n3}) fun j hj => ?_).trans card_le_three
    have := (mem_filter.1 hj).2
    unfold IsCorner at this
    simp only [mem_insert, mem_singleton]
    tauto
  · exact (countP_card w.eids_nodup).symm.le.trans (hv i hi)

/-- the errors in one row -/
theorem stiffErr_row (hp : Proper m) {v : ℕ} (hv : Valence m v) {P : ℕ → ℕ → ℝ} {p E0 M0 E M : ℝ} (hP : ∀ r < 5, ∀ s < 5, P r s ≤ p) (h0 : 0 ≤ p) (hE0 : 0 ≤ E0) (hM0 : 0 ≤ M0)
    (hE : 0 ≤ E) (hM : 0 ≤ M) {x : ℕ} (hx : x < 5 * m.nids.length) : ∑ y ∈ range (5 * m.nids.length), stiffErr m P E0 M0 E M x y ≤ rowErr p E0 M0 E M v (rimCount m) := by
  classical
  obtain ⟨i, hi, ei, -⟩ := nids_at w hx
  set c : ℝ := ((3 * v + rimCount m : ℕ) : ℝ) with hc
  set T : ℕ → ℝ := fun j => ((m.eids.toFinset.filter fun e => IsCorner m e i ∧ IsCorner m e j).card : ℝ) with hT
  set A := E0 + 4 * c * M0 + 1 with hAd
  set B := E + 4 * c * M0 + v * M + 1 with hBd
  have hc0 : 0 ≤ c := Nat.cast_nonneg _
  have hA : 0 ≤ A := by positivity
  have hB : 0 ≤ B := by positivity
  have one : ∀ a s, s < 5 → stiffErr m P E0 M0 E M x (5 * a + s) ≤ p * (16 * A * contributions m i (m.nids.getD a 0) + 2 * B * T (m.nids.getD a 0)) / 2 ^ 53 := by
    intro a s hs
    unfold stiffErr
    rw [ei, show (5 * a + s) / 5 = a by omega, show (5 * a + s) % 5 = s by omega]
    generalize m.nids.getD a 0 = j
    dsimp only
    have c1 : (contributions m i j : ℝ) ≤ c := by rw [hc]; exact_mod_cast contributions_le w hv hi j
    have c0 : (0:ℝ) ≤ contributions m i j := Nat.cast_nonneg _
    have t1 : (shearCount m i j (x % 5) s : ℝ) ≤ T j := by rw [hT]; dsimp only; exact_mod_cast shearCount_le w i j (x % 5) s
    have t2 : (shearCount m i j (x % 5) s : ℝ) ≤ v := t1.trans (by rw [hT]; dsimp only; exact_mod_cast pairs_le w hv hi j)
    have t0 : (0:ℝ) ≤ shearCount m i j (x % 5) s := Nat.cast_nonneg _
    have T0 : 0 ≤ T j := Nat.cast_nonneg _
    have q := hP (x % 5) (Nat.mod_lt _ (by norm_num)) s hs
    generalize (contributions m i j : ℝ) = n0 at c1 c0
    generalize (shearCount m i j (x % 5) s : ℝ) = n at t1 t2 t0
    refine div_le_div_of_nonneg_right ?_ (by positivity)
    refine mul_le_mul q ?_ (by positivity) h0
    have e1 : 16 * n0 * (E0 + 4 * n0 * M0 + 1) ≤ 16 * A * n0 := by
      have : E0 + 4 * n0 * M0 + 1 ≤ A := by rw [hAd]; gcongr
      calc _ ≤ 16 * n0 * A := by gcongr
        _ = _ := by ring
    have e2 : 2 * n * (E + 4 * n0 * M0 + n * M + 1) ≤ 2 * B * T j := by
      have : E + 4 * n0 * M0 + n * M + 1 ≤ B := by rw [hBd]; gcongr
      calc _ ≤ 2 * T j * B := by gcongr
        _ = _ := by ring
    exact add_le_add e1 e2
  have step : ∑ y ∈ range (5 * m.nids.length), stiffErr m P E0 M0 E M x y ≤
      ∑ a ∈ range m.nids.length, 5 * (p * (16 * A * contributions m i (m.nids.getD a 0) + 2 * B * T (m.nids.getD a 0)) / 2 ^ 53) := by
    rw [sum_by_node]
    refine sum_le_sum fun a _ => ?_
    have o0 := one a 0 (by norm_num)
    have o1 := one a 1 (by norm_num)
    have o2 := one a 2 (by norm_num)
    have o3 := one a 3 (by norm_num)
    have o4 := one a 4 (by norm_num)
    rw [Nat.add_zero] at o0
    linarith
  have nodes : ∀ g : ℕ → ℝ, ∑ a ∈ range m.nids.length, g (m.nids.getD a 0) = ∑ j ∈ m.nids.toFinset, g j := by
    intro g
    rw [List.sum_toFinset _ w.nids_nodup, ← sum_nodes w.nids_nodup fun a => g (m.nids.getD a 0)]
    congr 1
    refine List.map_congr_left fun j hj => ?_
    rw [List.getD_eq_getElem _ _ (List.idxOf_lt_length_of_mem hj), List.getElem_idxOf]
  refine step.trans ?_
  rw [nodes fun j => 5 * (p * (16 * A * contributions m i j + 2 * B * T j) / 2 ^ 53)]
  have s1 : ∑ j ∈ m.nids.toFinset, (contributions m i j : ℝ) ≤ 4 * c := by
    have := contributions_sum w hp hv hi
    rw [hc]
    exact_mod_cast this
  have s2 : ∑ j ∈ m.nids.toFinset, T j ≤ 3 * v := by
    have := pairs_sum w hv hi
    simp only [hT]
    exact_mod_cast this
  have : ∑ j ∈ m.nids.toFinset, 5 * (p * (16 * A * contributions m i j + 2 * B * T j) / 2 ^ 53) =
      5 * p * (16 * A * ∑ j ∈ m.nids.toFinset, (contributions m i j : ℝ) + 2 * B * ∑ j ∈ m.nids.toFinset, T j) / 2 ^ 53 := by
    rw [mul_sum, mul_sum, ← sum_add_distrib, mul_sum, sum_div]
    exact sum_congr rfl fun j _ => by ring
  rw [this]
  unfold rowErr
  refine div_le_div_of_nonneg_right ?_ (by positivity)
  refine mul_le_mul_of_nonneg_left ?_ (by positivity)
  have e1 := mul_le_mul_of_nonneg_left s1 (by positivity : 0 ≤ 16 * A)
  have e2 := mul_le_mul_of_nonneg_left s2 (by positivity : 0 ≤ 2 * B)
  refine (add_le_add e1 e2).trans (le_of_eq ?_)
  have hcc : (3 * (v:ℝ) + rimCount m) = c := by rw [hc]; push_cast; ring
  rw [hcc]
  ring

end

end Meshless
