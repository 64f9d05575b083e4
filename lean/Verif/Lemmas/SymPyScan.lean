import Verif.Model.SymPy
import Mathlib.Data.List.Infix
import Mathlib.Tactic.Common

/-! Scanning and replacing: a text cut into single characters and tokens, where the matcher finds exactly the tokens, before and after any of the
tokens have been replaced. -/

set_option autoImplicit false

namespace Meshless
namespace SymPy

theorem replaceAll_skip (p n : Str) : ∀ (x M : Str), (∀ x', x' ≠ [] → x' <:+ x → ¬ p <+: x' ++ M) →
    replaceAll p n (x ++ M) = x ++ replaceAll p n M
  | [], M, _ => rfl
  | c :: x, M, h => by
    have h0 := h (c :: x) (by simp) (List.suffix_refl _)
    rw [List.cons_append, replaceAll, if_neg (by rw [List.isPrefixOf_iff_prefix]; exact h0),
      replaceAll_skip p n x M fun x' hx hs => h x' hx (hs.trans (List.suffix_cons c x))]
    rfl

theorem replaceAll_hit (p n M : Str) (hp : p ≠ []) : replaceAll p n (p ++ M) = n ++ replaceAll p n M := by
  obtain ⟨c, t, rfl⟩ := List.exists_cons_of_ne_nil hp
  rw [List.cons_append, replaceAll, if_pos (by rw [List.isPrefixOf_iff_prefix]; exact ⟨M, rfl⟩)]
  simp

theorem findAll_skip (m : Str → Option ℕ) : ∀ (x M : Str), (∀ x', x' ≠ [] → x' <:+ x → m (x' ++ M) = none) →
    findAll m (x ++ M) = findAll m M
  | [], M, _ => rfl
  | c :: x, M, h => by
    have h0 := h (c :: x) (by simp) (List.suffix_refl _)
    rw [List.cons_append] at h0
    rw [List.cons_append, findAll, h0]
    exact findAll_skip m x M fun x' hx hs => h x' hx (hs.trans (List.suffix_cons c x))

theorem findAll_hit (m : Str → Option ℕ) (p M : Str) (hp : p ≠ []) (h : m (p ++ M) = some p.length) :
    findAll m (p ++ M) = p :: findAll m M := by
  obtain ⟨c, t, rfl⟩ := List.exists_cons_of_ne_nil hp
  rw [List.cons_append] at h ⊢
  rw [findAll, h]
  simp

/-- a character, or a token with its replacement -/
inductive Seg where
  | chr (c : Char)
  | tok (p e : Str)

/-- the text in which the tokens in `D` have been replaced -/
def mixed (D : List Str) : List Seg → Str
  | [] => []
  | .chr c :: r => c :: mixed D r
  | .tok p e :: r => (if p ∈ D then e else p) ++ mixed D r

/-- the tokens with their replacements, in order -/
def toks : List Seg → List (Str × Str)
  | [] => []
  | .chr _ :: r => toks r
  | .tok p e :: r => (p, e) :: toks r

/-- the text after all replacements -/
def final : List Seg → Str
  | [] => []
  | .chr c :: r => c :: final r
  | .tok _ e :: r => e ++ final r

/-- the matcher sees the tokens and nothing else, whatever has been replaced -/
def Seen (m : Str → Option ℕ) : List Seg → Prop
  | [] => True
  | .chr c :: r => (∀ D, m (c :: mixed D r) = none) ∧ Seen m r
  | .tok p e :: r => p ≠ [] ∧ (∀ D, m (p ++ mixed D r) = some p.length) ∧
      (∀ D x, x ≠ [] → x <:+ p → m (x ++ mixed D r) = none ∨ m (x ++ mixed D r) = some x.length) ∧
      (∀ D x, x ≠ [] → x <:+ e → m (x ++ mixed D r) = none) ∧ Seen m r

/-- a token is matched wherever it occurs, perhaps with more after it -/
def Anchor (m : Str → Option ℕ) (p : Str) : Prop := ∀ T, p <+: T → ∃ n, m T = some n ∧ p.length ≤ n

theorem findAll_seen {m : Str → Option ℕ} : ∀ {l : List Seg}, Seen m l → findAll m (mixed [] l) = (toks l).map Prod.fst
  | [], _ => by simp [mixed, findAll, toks]
  | .chr c :: r, h => by
    have e := findAll_skip m [c] (mixed [] r) (by
      intro x' hx hs
      have : x' = [c] := by
        rcases List.suffix_cons_iff.1 hs with h | h
        · exact h
        · exact absurd (List.suffix_nil.1 h) hx
      subst this
      exact h.1 [])
    simp only [List.singleton_append] at e
    simp only [mixed, toks]
    rw [e, findAll_seen h.2]
  | .tok p e :: r, h => by
    simp only [mixed, toks, List.not_mem_nil, if_false, List.map_cons]
    rw [findAll_hit m p _ h.1 (h.2.1 []), findAll_seen h.2.2.2.2]

/-- replacing one token everywhere: no other token still in the text may contain it -/
theorem replaceAll_seen {m : Str → Option ℕ} {p n : Str} (hp : p ≠ []) (ha : Anchor m p) (D : List Str) : ∀ {l : List Seg}, Seen m l →
    (∀ q e, (q, e) ∈ toks l → q = p → e = n) → (∀ q e, (q, e) ∈ toks l → q ∉ D → p <:+: q → q = p) →
    replaceAll p n (mixed D l) = mixed (p :: D) l
  | [], _, _, _ => by simp [mixed, replaceAll]
  | .chr c :: r, h, hn, hi => by
    have e := replaceAll_skip p n [c] (mixed D r) (by
      intro x' hx hs hpre
      have : x' = [c] := by
        rcases List.suffix_cons_iff.1 hs with h | h
        · exact h
        · exact absurd (List.suffix_nil.1 h) hx
      subst this
      obtain ⟨k, hk, _⟩ := ha _ hpre
      rw [List.singleton_append, h.1 D] at hk
      exact absurd hk (by simp))
    simp only [List.singleton_append] at e
    simp only [mixed]
    rw [e, replaceAll_seen hp ha D h.2 hn hi]
  | .tok q e :: r, h, hn, hi => by
    obtain ⟨h1, h2, h3, h4, h5⟩ := h
    have hn' : ∀ q e, (q, e) ∈ toks r → q = p → e = n := fun q' e' hm => hn q' e' (List.mem_cons_of_mem _ hm)
    have hi' : ∀ q e, (q, e) ∈ toks r → q ∉ D → p <:+: q → q = p := fun q' e' hm => hi q' e' (List.mem_cons_of_mem _ hm)
    have ih := replaceAll_seen hp ha D h5 hn' hi'
    simp only [mixed]
    by_cases hq : q ∈ D
    · rw [if_pos hq, if_pos (List.mem_cons_of_mem _ hq), replaceAll_skip p n e (mixed D r), ih]
      intro x hx hs hpre
      obtain ⟨k, hk, _⟩ := ha _ hpre
      rw [h4 D x hx hs] at hk
      exact absurd hk (by simp)
    · rw [if_neg hq]
      by_cases hqp : q = p
      · rw [if_pos (by simp [hqp]), hqp, replaceAll_hit p n _ hp, ih, hn q e (by simp [toks]) hqp]
      · rw [if_neg (by simp [hqp, hq]), replaceAll_skip p n q (mixed D r), ih]
        intro x hx hs hpre
        obtain ⟨k, hk, hl⟩ := ha _ hpre
        rcases h3 D x hx hs with h | h
        · rw [h] at hk; exact absurd hk (by simp)
        · rw [h] at hk
          have hk' : x.length = k := by simpa using hk
          have : p <+: x := List.prefix_of_prefix_length_le hpre (List.prefix_append x _) (by omega)
          exact hqp (hi q e (by simp [toks]) hq (this.isInfix.trans hs.isInfix))

theorem mixed_final (D : List Str) : ∀ (l : List Seg), (∀ q e, (q, e) ∈ toks l → q ∈ D) → mixed D l = final l
  | [], _ => rfl
  | .chr c :: r, h => by rw [mixed, final, mixed_final D r h]
  | .tok p e :: r, h => by
    rw [mixed, final, if_pos (h p e (by simp [toks])), mixed_final D r fun q e hm => h q e (List.mem_cons_of_mem _ hm)]

/-- replacing the tokens of a list one after the other, provided no token that is still to come contains the one being replaced -/
theorem substAll_seen {m : Str → Option ℕ} {l : List Seg} (h : Seen m l) : ∀ (L : List (Str × Str)) (D : List Str),
    (∀ q ∈ L, q.1 ≠ [] ∧ Anchor m q.1) → (∀ q ∈ L, ∀ q' e, (q', e) ∈ toks l → q' = q.1 → e = q.2) →
    (∀ q e, (q, e) ∈ toks l → q ∈ D ∨ q ∈ L.map Prod.fst) → (L.map Prod.fst).Pairwise (fun a b => a <:+: b → a = b) →
    substAll (mixed D l) L = final l
  | [], D, _, _, h3, _ => by
    rw [substAll, List.foldl_nil]
    exact mixed_final D l fun q e hm => by simpa using h3 q e hm
  | (p, n) :: L, D, h1, h2, h3, h4 => by
    rw [List.map_cons, List.pairwise_cons] at h4
    have e := replaceAll_seen (h1 (p, n) (by simp)).1 (h1 (p, n) (by simp)).2 D h
      (fun q e hm hq => h2 (p, n) (by simp) q e hm hq)
      (fun q e hm hq hi => by
        rcases h3 q e hm with h | h
        · exact absurd h hq
        · rw [List.map_cons, List.mem_cons] at h
          rcases h with h | h
          · exact h
          · exact (h4.1 q h hi).symm)
    rw [substAll, List.foldl_cons, ← substAll, e]
    refine substAll_seen h L (p :: D) (fun q hq => h1 q (List.mem_cons_of_mem _ hq)) (fun q hq => h2 q (List.mem_cons_of_mem _ hq)) ?_ h4.2
    intro q e hm
    rcases h3 q e hm with h | h
    · exact Or.inl (List.mem_cons_of_mem _ h)
    · rw [List.map_cons, List.mem_cons] at h
      rcases h with h | h
      · exact Or.inl (by simp [h])
      · exact Or.inr h

theorem pairs_ok {new : Str → Except Err Str} : ∀ {L : List (Str × Str)}, (∀ q ∈ L, new q.1 = .ok q.2) → pairs new (L.map Prod.fst) = .ok L
  | [], _ => rfl
  | (p, n) :: L, h => by
    rw [List.map_cons, pairs]
    simp only [h (p, n) (by simp)]
    rw [pairs_ok fun q hq => h q (List.mem_cons_of_mem _ hq)]

theorem longestFirst_mem (L : List (Str × Str)) (q : Str × Str) : q ∈ longestFirst L ↔ q ∈ L := by
  simp [longestFirst]

theorem longestFirst_pairwise (L : List (Str × Str)) : ((longestFirst L).map Prod.fst).Pairwise fun a b => a <:+: b → a = b := by
  have h : (L.mergeSort fun a b => decide (a.1.length ≤ b.1.length)).Pairwise fun a b => decide (a.1.length ≤ b.1.length) = true :=
    List.pairwise_mergeSort (by intro a b c; simp; omega) (by intro a b; simp; omega) L
  rw [longestFirst, List.pairwise_map, List.pairwise_reverse]
  refine h.imp fun {a b} hab hi => ?_
  exact hi.eq_of_length_le (by simpa using hab)

end SymPy
end Meshless
