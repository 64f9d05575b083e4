import Verif.Lemmas.KGForm
import Verif.Lemmas.K0sPos

/-! `calc_kG` for displacement vectors of any length, `add_k0s` for matrices of any size. -/

set_option autoImplicit false

namespace Meshless
open Spec

/-- the indices `calc_kG` uses for an edge -/
def kgIx (m : Mesh) (ed : Edge) : List ℤ :=
  if ed.ipts.length = 3 then iptIndices (nodeIdx m) ed.ipts ++ [0] else iptIndices (nodeIdx m) ed.ipts

theorem mem_kgIx {m : Mesh} {ed : Edge} {p : IPt} (hp : p ∈ ed.ipts) : nodeIdx m p.n1 ∈ kgIx m ed ∧ nodeIdx m p.n2 ∈ kgIx m ed ∧ nodeIdx m p.n3 ∈ kgIx m ed := by
  have key : ∀ j ∈ [nodeIdx m p.n1, nodeIdx m p.n2, nodeIdx m p.n3], j ∈ kgIx m ed := by
    intro j hj
    have : j ∈ iptIndices (nodeIdx m) ed.ipts := by
      unfold iptIndices
      rw [List.mem_insertionSort, List.mem_dedup, List.mem_flatMap]
      exact ⟨p, hp, hj⟩
    unfold kgIx
    split
    · exact List.mem_append_left _ this
    · exact this
  exact ⟨key _ (by simp), key _ (by simp), key _ (by simp)⟩

/-- an edge is processed only if the slices of all its nodes are complete -/
theorem kGEnv_full {m : Mesh} {d : List ℝ} {pn : Bool} {ed : Edge} {e : KGEnv ℝ} (h : kGEnv m d pn ed = .ok e) : ∀ j ∈ kgIx m ed, (dSlice d j).length = 5 := by
  unfold kGEnv at h
  change _ = _ at h
  split at h
  · cases h
  split at h
  · cases h
  split at h
  · cases h
  dsimp only at h
  change (match kgIx m ed with | [i1, i2, i3, i4] => _ | _ => _) = _ at h
  rcases hix : kgIx m ed with _ | ⟨i1, _ | ⟨i2, _ | ⟨i3, _ | ⟨i4, _ | ⟨i5, l⟩⟩⟩⟩⟩ <;> rw [hix] at h <;> try (cases h)
  dsimp only at h
  split at h
  · split at h
    · split at h
      · rename_i h5
        intro j hj
        simp only [List.mem_cons, List.not_mem_nil, or_false] at hj
        rcases hj with rfl | rfl | rfl | rfl
        · exact h5.1
        · exact h5.2.1
        · exact h5.2.2.1
        · exact h5.2.2.2
      · split at h <;> cases h
    all_goals cases h
  · cases h

/-- two vectors with the same slices give the same edge data -/
theorem kGEnv_slices {m : Mesh} {d d' : List ℝ} {pn : Bool} {ed : Edge} (h : ∀ j ∈ kgIx m ed, dSlice d j = dSlice d' j) : kGEnv m d pn ed = kGEnv m d' pn ed := by
  unfold kGEnv
  split
  · rfl
  split
  · rfl
  split
  · rfl
  dsimp only
  change (match kgIx m ed with | [i1, i2, i3, i4] => _ | _ => _) = (match kgIx m ed with | [i1, i2, i3, i4] => _ | _ => _)
  rcases hix : kgIx m ed with _ | ⟨i1, _ | ⟨i2, _ | ⟨i3, _ | ⟨i4, _ | ⟨i5, l⟩⟩⟩⟩⟩ <;> try rfl
  rw [hix] at h
  have e1 := h i1 (by simp)
  have e2 := h i2 (by simp)
  have e3 := h i3 (by simp)
  have e4 := h i4 (by simp)
  dsimp only
  rw [e1, e2, e3, e4]

/-- if some vector is accepted, another one can only fail for its length -/
theorem kGEnv_kind {m : Mesh} {d d' : List ℝ} {pn : Bool} {ed : Edge} {e : KGEnv ℝ} (h : kGEnv m d pn ed = .ok e) {x : Err} (h' : kGEnv m d' pn ed = .error x) :
    x = .indexError ∨ x = .valueError := by
  have hf := kGEnv_full h
  unfold kGEnv at h h'
  split at h
  · cases h
  split at h
  · cases h
  split at h
  · cases h
  rename_i g1 g2 g3
  rw [if_neg g1, if_neg g2, if_neg g3] at h'
  dsimp only at h h'
  change (match kgIx m ed with | [i1, i2, i3, i4] => _ | _ => _) = _ at h
  change (match kgIx m ed with | [i1, i2, i3, i4] => _ | _ => _) = _ at h'
  rcases hix : kgIx m ed with _ | ⟨i1, _ | ⟨i2, _ | ⟨i3, _ | ⟨i4, _ | ⟨i5, l⟩⟩⟩⟩⟩ <;> rw [hix] at h h' <;> try (cases h)
  dsimp only at h h'
  split at h
  · rename_i p1 p2 p3 rest hip
    rw [hip] at h'
    dsimp only at h'
    split at h
    · rename_i Ac A B hAc hA hB
      rw [hAc, hA, hB] at h'
      dsimp only at h'
      split at h'
      · cases h'
      · split at h'
        · cases h'; exact Or.inl rfl
        · cases h'; exact Or.inr rfl
    all_goals cases h
  · cases h

/-! ### loops over increments in matrices of different sizes -/

/-- all positions are natural numbers below `n` -/
def InRange (n : ℕ) (es : List (ℤ × ℤ × ℝ)) : Prop := ∀ x ∈ es, ∃ a b : ℕ, a < n ∧ b < n ∧ x.1 = (a : ℤ) ∧ x.2.1 = (b : ℤ)

theorem InRange.ok {n : ℕ} {es : List (ℤ × ℤ × ℝ)} (h : InRange n es) {n' : ℕ} (hn : n ≤ n') : EntriesOk n' es := by
  intro x hx
  obtain ⟨a, b, ha, hb, e1, e2⟩ := h x hx
  rw [e1, e2, pyIdx_nonneg (by omega), pyIdx_nonneg (by omega)]
  exact ⟨rfl, rfl⟩

theorem InRange.entrySum_eq {n : ℕ} {es : List (ℤ × ℤ × ℝ)} (h : InRange n es) {n' : ℕ} (hn : n ≤ n') (i j : ℕ) : entrySum n' es i j = entrySum n es i j := by
  unfold entrySum
  congr 1
  refine List.map_congr_left fun x hx => ?_
  obtain ⟨a, b, ha, hb, e1, e2⟩ := h x hx
  rw [e1, e2, pyIdx_nonneg (by omega), pyIdx_nonneg (by omega), pyIdx_nonneg ha, pyIdx_nonneg hb]

theorem Mat.addAll_kind : ∀ (es : List (ℤ × ℤ × ℝ)) (M : Mat) (x : Err), (M.addAll es).2 = some x → x = .indexError := by
  intro es
  induction es with
  | nil => intro M x h; cases h
  | cons e es ih =>
    intro M x h
    obtain ⟨r, c, v⟩ := e
    simp only [Mat.addAll, Mat.addAt] at h
    cases hr : pyIdx M.dim r <;> cases hc : pyIdx M.dim c <;> rw [hr, hc] at h
    · exact (Option.some.inj h).symm
    · exact (Option.some.inj h).symm
    · exact (Option.some.inj h).symm
    · exact ih _ x h

/-- an exception comes from the computation of the increments or is an IndexError of the matrix -/
theorem matLoop_kind {α : Type} (g : α → Except Err (List (ℤ × ℤ × ℝ))) : ∀ (l : List α) (K : Mat) (x : Err),
    (matLoop (fun K a => applyE (g a) K) K l).2 = some x → x = .indexError ∨ ∃ a ∈ l, g a = .error x := by
  intro l
  induction l with
  | nil => intro K x h; cases h
  | cons a l ih =>
    intro K x h
    simp only [matLoop] at h
    cases hg : g a with
    | error e =>
      rw [hg] at h
      simp only [applyE] at h
      right
      exact ⟨a, by simp, by rw [hg]; simpa using h⟩
    | ok es =>
      rw [hg] at h
      simp only [applyE] at h
      rcases hK : K.addAll es with ⟨K', o⟩
      rw [hK] at h
      cases o with
      | some e =>
        left
        apply Mat.addAll_kind es K
        rw [hK]; exact h
      | none =>
        rcases ih K' x h with h' | ⟨b, hb, h'⟩
        · exact Or.inl h'
        · exact Or.inr ⟨b, by simp [hb], h'⟩

/-- the outcome and the increments are the same in every large enough matrix -/
theorem matLoop_size {α : Type} (g : α → Except Err (List (ℤ × ℤ × ℝ))) {n : ℕ} : ∀ (l : List α), (∀ a ∈ l, ∀ es, g a = .ok es → InRange n es) →
    ∀ (M M' : Mat), n ≤ M.dim → n ≤ M'.dim →
    (matLoop (fun K a => applyE (g a) K) M l).2 = (matLoop (fun K a => applyE (g a) K) M' l).2 ∧
    ∀ i j, (matLoop (fun K a => applyE (g a) K) M l).1.get i j - M.get i j = (matLoop (fun K a => applyE (g a) K) M' l).1.get i j - M'.get i j := by
  intro l
  induction l with
  | nil => intro _ M M' _ _; exact ⟨rfl, fun i j => by simp [matLoop]⟩
  | cons a l ih =>
    intro h M M' hM hM'
    simp only [matLoop]
    cases hg : g a with
    | error e => exact ⟨rfl, fun i j => by simp [applyE]⟩
    | ok es =>
      have hr := h a (by simp) es hg
      obtain ⟨N, h1, h2, h3⟩ := Mat.addAll_ok (hr.ok hM)
      obtain ⟨N', h1', h2', h3'⟩ := Mat.addAll_ok (hr.ok hM')
      obtain ⟨g1, g2⟩ := ih (fun b hb => h b (by simp [hb])) N N' (by omega) (by omega)
      have s1 : applyE (.ok es) M = (N, none) := h1
      have s2 : applyE (.ok es) M' = (N', none) := h1'
      rw [s1, s2]
      dsimp only
      refine ⟨g1, fun i j => ?_⟩
      have e1 := g2 i j
      rw [h3, h3', hr.entrySum_eq hM, hr.entrySum_eq hM'] at e1
      linarith

/-! ### which positions `add_k0s` writes -/

theorem mem_poss {is : List ℤ} {i : ℤ} (hi : i ∈ is) : (i * 5 + 4, i * 5 + 4) ∈ sq (sdofs is) := by
  have : i * 5 + 4 ∈ sdofs is := List.mem_flatMap.2 ⟨i, hi, by simp⟩
  exact List.mem_flatMap.2 ⟨_, this, List.mem_map.2 ⟨_, this, rfl⟩⟩

theorem hit_of_poss {es : List (ℤ × ℤ × ℝ)} {is : List ℤ} (he : poss es = sq (sdofs is)) {a : ℕ} (ha : (a : ℤ) ∈ is) :
    ∃ x ∈ es, x.1 = ((5 * a + 4 : ℕ) : ℤ) := by
  have := mem_poss ha
  rw [← he] at this
  obtain ⟨x, hx, e⟩ := List.mem_map.1 this
  refine ⟨x, hx, ?_⟩
  have := congrArg Prod.fst e
  dsimp only at this
  rw [this]; push_cast; ring

/-- every corner of a triangle has increments in its last row -/
theorem k0sIncr_hit {m : Mesh} (w : WF m) {pn : Bool} {method : String} {al : ℝ} {fa : Bool} (hok : ∀ g ∈ k0sIncr m pn method al fa, ∃ es, g = .ok es)
    {e : ℕ} (he : e ∈ m.eids) {p : ℕ} (hp : IsCorner m e p) :
    ∃ es a, .ok es ∈ k0sIncr m pn method al fa ∧ (m.node p).index = some a ∧ ∃ x ∈ es, x.1 = ((5 * a + 4 : ℕ) : ℤ) := by
  unfold k0sIncr at hok ⊢
  split
  · rename_i hm
    rw [if_pos hm] at hok
    obtain ⟨es, h⟩ := hok _ (List.mem_map.2 ⟨e, he, rfl⟩)
    refine ⟨es, ?_⟩
    rw [exists_and_left] 
    refine ⟨List.mem_map.2 ⟨e, he, h⟩, ?_⟩
    cases henv : cellSEnv m pn al fa e with
    | error _ => rw [henv] at h; cases h
    | ok env =>
      rw [henv] at h
      cases h
      unfold cellSEnv at henv
      have ho : p = (cellOrient m e).1 ∨ p = (cellOrient m e).2.1 ∨ p = (cellOrient m e).2.2 := by
        revert hp; unfold cellOrient IsCorner; dsimp only; split <;> simp only <;> tauto
      revert henv ho
      rcases cellOrient m e with ⟨a, b, c⟩
      intro henv ho
      dsimp only [bind, Except.bind] at henv ho
      split at henv
      · cases henv
      split at henv
      · cases henv
      split at henv
      · rename_i i1 i2 i3 h1 h2 h3
        cases henv
        rcases ho with rfl | rfl | rfl
        · exact ⟨i1, h1, hit_of_poss (poss_cellS _) (by simp)⟩
        · exact ⟨i2, h2, hit_of_poss (poss_cellS _) (by simp)⟩
        · exact ⟨i3, h3, hit_of_poss (poss_cellS _) (by simp)⟩
      · cases henv
  rename_i hm
  rw [if_neg hm] at hok
  split
  · rename_i hm
    rw [if_pos hm] at hok
    obtain ⟨es, h⟩ := hok _ (List.mem_map.2 ⟨e, he, rfl⟩)
    refine ⟨es, ?_⟩
    rw [exists_and_left] 
    refine ⟨List.mem_map.2 ⟨e, he, h⟩, ?_⟩
    cases henv : cellNSEnv m pn al fa e with
    | error _ => rw [henv] at h; cases h
    | ok env =>
      rw [henv] at h
      cases h
      unfold cellNSEnv at henv
      have ho : p = (cellNSOrient m e).1 ∨ p = (cellNSOrient m e).2.1 ∨ p = (cellNSOrient m e).2.2 := by
        revert hp; unfold cellNSOrient IsCorner; dsimp only; split <;> simp only <;> tauto
      revert henv ho
      rcases cellNSOrient m e with ⟨a, b, c⟩
      intro henv ho
      dsimp only [bind, Except.bind] at henv ho
      split at henv
      · cases henv
      split at henv
      · cases henv
      split at henv
      · rename_i i1 i2 i3 h1 h2 h3
        cases henv
        rcases ho with rfl | rfl | rfl
        · exact ⟨i1, h1, hit_of_poss (poss_cellNS _) (by simp)⟩
        · exact ⟨i2, h2, hit_of_poss (poss_cellNS _) (by simp)⟩
        · exact ⟨i3, h3, hit_of_poss (poss_cellNS _) (by simp)⟩
      · cases henv
  rename_i hm
  rw [if_neg hm] at hok
  split
  · rename_i hm
    rw [if_pos hm] at hok
    -- a side of the triangle that ends at `p`
    obtain ⟨k, hk, hpk⟩ : ∃ k ∈ m.ekeys, p = (m.edge k).n1 ∨ p = (m.edge k).n2 := by
      have side : ∀ a b : ℕ, sortPair a b ∈ (m.tria e).edgeIds → p = a ∨ p = b → ∃ k ∈ m.ekeys, p = (m.edge k).n1 ∨ p = (m.edge k).n2 := by
        intro a b hs hab
        have hk := (w.mem_ekeys _).2 ⟨e, he, hs⟩
        refine ⟨_, hk, ?_⟩
        rw [(w.en _ hk).1, (w.en _ hk).2]
        unfold sortPair
        split <;> simp only <;> tauto
      unfold IsCorner at hp
      rcases hp with h | h | h
      · exact side (m.tria e).n1 (m.tria e).n2 (by simp [Tria.edgeIds]) (by tauto)
      · exact side (m.tria e).n1 (m.tria e).n2 (by simp [Tria.edgeIds]) (by tauto)
      · exact side (m.tria e).n2 (m.tria e).n3 (by simp [Tria.edgeIds]) (by tauto)
    obtain ⟨es, h⟩ := hok _ (List.mem_map.2 ⟨k, hk, rfl⟩)
    refine ⟨es, ?_⟩
    rw [exists_and_left] 
    refine ⟨List.mem_map.2 ⟨k, hk, h⟩, ?_⟩
    have ho : ∀ t, p = (edgeOrient m (m.edge k) t).1 ∨ p = (edgeOrient m (m.edge k) t).2 := by
      intro t
      unfold edgeOrient; split <;> simp only <;> tauto
    unfold edgeSG at h
    split at h
    · cases h
    · rename_i t ht
      cases henv : edgeBEnv m pn al fa (m.edge k) t (edgeOrient m (m.edge k) t).1 (edgeOrient m (m.edge k) t).2 with
      | error _ => rw [henv] at h; cases h
      | ok env =>
        rw [henv] at h
        cases h
        unfold edgeBEnv at henv
        split at henv
        · rename_i o1 Ac e1 e2
          dsimp only [bind, Except.bind] at henv
          split at henv
          · cases henv
          split at henv
          · cases henv
          split at henv
          · rename_i i1 i2 i3 h1 h2 h3
            cases henv
            rcases ho t with h | h
            · exact ⟨i1, by rw [h]; exact h1, hit_of_poss (poss_edgeB _) (by simp)⟩
            · exact ⟨i2, by rw [h]; exact h2, hit_of_poss (poss_edgeB _) (by simp)⟩
          · cases henv
        · cases henv
        · cases henv
    · rename_i t t' ht
      cases henv : edgeIEnv m pn al fa (m.edge k) t t' (edgeOrient m (m.edge k) t).1 (edgeOrient m (m.edge k) t).2 with
      | error _ => rw [henv] at h; cases h
      | ok env =>
        rw [henv] at h
        cases h
        unfold edgeIEnv at henv
        split at henv
        · rename_i o1 o2 Ac e1 e2 e3
          dsimp only [bind, Except.bind] at henv
          split at henv
          · cases henv
          split at henv
          · cases henv
          split at henv
          · rename_i i1 i2 i3 i4 h1 h2 h3 h4
            cases henv
            rcases ho t with h | h
            · exact ⟨i1, by rw [h]; exact h1, hit_of_poss (poss_edgeI _) (by simp)⟩
            · exact ⟨i2, by rw [h]; exact h2, hit_of_poss (poss_edgeI _) (by simp)⟩
          · cases henv
        · cases henv
        · cases henv
    · cases h
  · rename_i hm'
    rw [if_neg hm'] at hok
    obtain ⟨es, h⟩ := hok (.error .valueError) (by simp)
    cases h

end Meshless
