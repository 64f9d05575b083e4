import Verif.Lemmas.K0sPatch
import Verif.Lemmas.K0sLoop

/-! Which nodes an increment of `add_k0s` belongs to. -/

set_option autoImplicit false

namespace Meshless
open Spec Finset

/-- `p` is an end of the edge or one of the remaining corners recorded by `calc_k0` -/
def EdgeKnows (m : Mesh) (k : Key) (p : ℕ) : Prop := p = (m.edge k).n1 ∨ p = (m.edge k).n2 ∨ (m.edge k).other1 = some p ∨ (m.edge k).other2 = some p

/-- the nodes coupled by a method -/
def Coupled (m : Mesh) (method : String) (p q : ℕ) : Prop :=
  if method = "edge-based" then ∃ k ∈ m.ekeys, EdgeKnows m k p ∧ EdgeKnows m k q else ∃ e ∈ m.eids, IsCorner m e p ∧ IsCorner m e q

theorem pos_of_poss {es : List (ℤ × ℤ × ℝ)} {m : Mesh} {G : ℕ → Prop} {is : List ℤ} (he : poss es = sq (sdofs is))
    (hi : ∀ i ∈ is, ∃ p a : ℕ, i = a ∧ (m.node p).index = some a ∧ G p) {x : ℤ × ℤ × ℝ} (hx : x ∈ es) :
    ∃ p q a b r s : ℕ, (m.node p).index = some a ∧ (m.node q).index = some b ∧ G p ∧ G q ∧ (r = 2 ∨ r = 3 ∨ r = 4) ∧ (s = 2 ∨ s = 3 ∨ s = 4) ∧
      x.1 = ((5 * a + r : ℕ) : ℤ) ∧ x.2.1 = ((5 * b + s : ℕ) : ℤ) := by
  have hm : (x.1, x.2.1) ∈ poss es := List.mem_map.2 ⟨x, hx, rfl⟩
  rw [he] at hm
  obtain ⟨h1, h2⟩ := mem_sq hm
  obtain ⟨i, hi1, r, hr, e1⟩ := mem_sdofs h1
  obtain ⟨j, hj1, s, hs, e2⟩ := mem_sdofs h2
  obtain ⟨p, a, rfl, hpa, gp⟩ := hi i hi1
  obtain ⟨q, b, rfl, hqb, gq⟩ := hi j hj1
  refine ⟨p, q, a, b, r, s, hpa, hqb, gp, gq, hr, hs, ?_, ?_⟩
  · dsimp only at e1; rw [e1]; push_cast; ring
  · dsimp only at e2; rw [e2]; push_cast; ring

theorem k0sIncr_pos {m : Mesh} {pn : Bool} {method : String} {al : ℝ} {fa : Bool} {es : List (ℤ × ℤ × ℝ)} (h : .ok es ∈ k0sIncr m pn method al fa)
    {x : ℤ × ℤ × ℝ} (hx : x ∈ es) :
    ∃ p q a b r s : ℕ, (m.node p).index = some a ∧ (m.node q).index = some b ∧ Coupled m method p q ∧ (r = 2 ∨ r = 3 ∨ r = 4) ∧ (s = 2 ∨ s = 3 ∨ s = 4) ∧
      x.1 = ((5 * a + r : ℕ) : ℤ) ∧ x.2.1 = ((5 * b + s : ℕ) : ℤ) := by
  unfold k0sIncr at h
  split at h
  · rename_i hm
    obtain ⟨e, he, h⟩ := List.mem_map.1 h
    cases henv : cellSEnv m pn al fa e with
    | error _ => rw [henv] at h; cases h
    | ok env =>
      rw [henv] at h
      cases h
      have hi : ∀ i ∈ [env.i1, env.i2, env.i3], ∃ p a : ℕ, i = a ∧ (m.node p).index = some a ∧ IsCorner m e p := by
        unfold cellSEnv at henv
        have ho : (∀ p, p = (cellOrient m e).1 ∨ p = (cellOrient m e).2.1 ∨ p = (cellOrient m e).2.2 → IsCorner m e p) := by
          unfold cellOrient IsCorner; dsimp only; split <;> simp only <;> tauto
        revert henv ho
        rcases cellOrient m e with ⟨a, b, c⟩
        intro henv ho
        dsimp only [bind, Except.bind] at henv ho
        split at henv
        · cases henv
        split at henv
        · cases henv
        split at henv
        · rename_i i1 i2 i3 h1 h2 h3
          cases henv
          intro i hi
          simp only [List.mem_cons, List.not_mem_nil, or_false] at hi
          rcases hi with rfl | rfl | rfl
          · exact ⟨_, _, rfl, h1, ho _ (by simp)⟩
          · exact ⟨_, _, rfl, h2, ho _ (by simp)⟩
          · exact ⟨_, _, rfl, h3, ho _ (by simp)⟩
        · cases henv
      obtain ⟨p, q, a, b, r, s, h1, h2, h3, h4, h5⟩ := pos_of_poss (poss_cellS env) hi hx
      exact ⟨p, q, a, b, r, s, h1, h2, by unfold Coupled; rw [if_neg (by rw [hm]; decide)]; exact ⟨e, he, h3, h4⟩, h5⟩
  split at h
  · rename_i hm
    obtain ⟨e, he, h⟩ := List.mem_map.1 h
    cases henv : cellNSEnv m pn al fa e with
    | error _ => rw [henv] at h; cases h
    | ok env =>
      rw [henv] at h
      cases h
      have hi : ∀ i ∈ [env.i1, env.i2, env.i3], ∃ p a : ℕ, i = a ∧ (m.node p).index = some a ∧ IsCorner m e p := by
        unfold cellNSEnv at henv
        have ho : (∀ p, p = (cellNSOrient m e).1 ∨ p = (cellNSOrient m e).2.1 ∨ p = (cellNSOrient m e).2.2 → IsCorner m e p) := by
          unfold cellNSOrient IsCorner; dsimp only; split <;> simp only <;> tauto
        revert henv ho
        rcases cellNSOrient m e with ⟨a, b, c⟩
        intro henv ho
        dsimp only [bind, Except.bind] at henv ho
        split at henv
        · cases henv
        split at henv
        · cases henv
        split at henv
        · rename_i i1 i2 i3 h1 h2 h3
          cases henv
          intro i hi
          simp only [List.mem_cons, List.not_mem_nil, or_false] at hi
          rcases hi with rfl | rfl | rfl
          · exact ⟨_, _, rfl, h1, ho _ (by simp)⟩
          · exact ⟨_, _, rfl, h2, ho _ (by simp)⟩
          · exact ⟨_, _, rfl, h3, ho _ (by simp)⟩
        · cases henv
      obtain ⟨p, q, a, b, r, s, h1, h2, h3, h4, h5⟩ := pos_of_poss (poss_cellNS env) hi hx
      exact ⟨p, q, a, b, r, s, h1, h2, by unfold Coupled; rw [if_neg (by rw [hm]; decide)]; exact ⟨e, he, h3, h4⟩, h5⟩
  split at h
  · rename_i hm
    obtain ⟨k, hk, h⟩ := List.mem_map.1 h
    have ho : ∀ t p, p = (edgeOrient m (m.edge k) t).1 ∨ p = (edgeOrient m (m.edge k) t).2 → EdgeKnows m k p := by
      intro t p
      unfold edgeOrient EdgeKnows; split <;> simp only <;> tauto
    have fin : ∀ is : List ℤ, poss es = sq (sdofs is) → (∀ i ∈ is, ∃ p a : ℕ, i = a ∧ (m.node p).index = some a ∧ EdgeKnows m k p) →
        ∃ p q a b r s : ℕ, (m.node p).index = some a ∧ (m.node q).index = some b ∧ Coupled m method p q ∧ (r = 2 ∨ r = 3 ∨ r = 4) ∧
          (s = 2 ∨ s = 3 ∨ s = 4) ∧ x.1 = ((5 * a + r : ℕ) : ℤ) ∧ x.2.1 = ((5 * b + s : ℕ) : ℤ) := by
      intro is hp hi
      obtain ⟨p, q, a, b, r, s, h1, h2, h3, h4, h5⟩ := pos_of_poss hp hi hx
      exact ⟨p, q, a, b, r, s, h1, h2, by unfold Coupled; rw [if_pos hm]; exact ⟨k, hk, h3, h4⟩, h5⟩
    unfold edgeSG at h
    split at h
    · cases h
    · rename_i t ht
      cases henv : edgeBEnv m pn al fa (m.edge k) t (edgeOrient m (m.edge k) t).1 (edgeOrient m (m.edge k) t).2 with
      | error _ => rw [henv] at h; cases h
      | ok env =>
        rw [henv] at h
        cases h
        refine fin _ (poss_edgeB env) ?_
        unfold edgeBEnv at henv
        split at henv
        · rename_i o1 Ac e1 e2
          dsimp only [bind, Except.bind] at henv
          split at henv
          · cases henv
          split at henv
          · cases henv
          split at henv
          · rename_i i1 i2 i3 h1 h2 h3
            cases henv
            intro i hi
            simp only [List.mem_cons, List.not_mem_nil, or_false] at hi
            rcases hi with rfl | rfl | rfl
            · exact ⟨_, _, rfl, h1, ho t _ (Or.inl rfl)⟩
            · exact ⟨_, _, rfl, h2, ho t _ (Or.inr rfl)⟩
            · exact ⟨_, _, rfl, h3, Or.inr (Or.inr (Or.inl e1))⟩
          · cases henv
        · cases henv
        · cases henv
    · rename_i t1 t2 ht
      cases henv : edgeIEnv m pn al fa (m.edge k) t1 t2 (edgeOrient m (m.edge k) t1).1 (edgeOrient m (m.edge k) t1).2 with
      | error _ => rw [henv] at h; cases h
      | ok env =>
        rw [henv] at h
        cases h
        refine fin _ (poss_edgeI env) ?_
        unfold edgeIEnv at henv
        split at henv
        · rename_i o1 o2 Ac e1 e2 e3
          dsimp only [bind, Except.bind] at henv
          split at henv
          · cases henv
          split at henv
          · cases henv
          split at henv
          · rename_i i1 i2 i3 i4 h1 h2 h3 h4
            cases henv
            intro i hi
            simp only [List.mem_cons, List.not_mem_nil, or_false] at hi
            rcases hi with rfl | rfl | rfl | rfl
            · exact ⟨_, _, rfl, h1, ho t1 _ (Or.inl rfl)⟩
            · exact ⟨_, _, rfl, h2, ho t1 _ (Or.inr rfl)⟩
            · exact ⟨_, _, rfl, h3, Or.inr (Or.inr (Or.inl e1))⟩
            · exact ⟨_, _, rfl, h4, Or.inr (Or.inr (Or.inr e2))⟩
          · cases henv
        · cases henv
        · cases henv
    · cases h
  · simp at h

end Meshless
