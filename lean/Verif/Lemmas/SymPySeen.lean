import Verif.Lemmas.SymPyPow

/-! Replacing some of the powers of a text never makes or hides other matches of the power patterns. -/

set_option autoImplicit false

namespace Meshless
namespace SymPy
open Spec

/-- a power and its replacement -/
structure TokOk (blanks groups : Bool) (p e : Str) : Prop where
  result : ∃ y, e = '(' :: y ++ [')'] ∧ ¬ ['*', '*'] <:+: y
  source : (∃ w b d, w ≠ [] ∧ (∀ c ∈ w, Word c) ∧ (∀ c ∈ b, blanks = true ∧ Blank c) ∧ d ≠ [] ∧ (∀ c ∈ d, Digit c) ∧ p = w ++ '*' :: '*' :: (b ++ d)) ∨
    (groups = true ∧ ∃ c d, c ≠ [] ∧ (∀ a ∈ c, ¬ Paren a) ∧ ¬ ['*', '*'] <:+: c ∧ d ≠ [] ∧ (∀ a ∈ d, Digit a) ∧ p = '(' :: (c ++ ')' :: '*' :: '*' :: d))

/-- a text whose tokens are its powers -/
def Valid (blanks groups : Bool) : List Seg → Prop
  | [] => True
  | .chr c :: r => ¬ BeginsPower blanks groups (c :: mixed [] r) ∧ Valid blanks groups r
  | .tok p e :: r => TokOk blanks groups p e ∧ Follows blanks (mixed [] r) ∧ Valid blanks groups r

variable {blanks groups : Bool}

theorem TokOk.head {p e : Str} (h : TokOk blanks groups p e) : ∃ x q, p = x :: q ∧ (Word x ∨ x = '(') := by
  rcases h.source with ⟨w, b, d, h1, h2, _, _, _, rfl⟩ | ⟨_, c, d, _, _, _, _, _, rfl⟩
  · obtain ⟨x, y, rfl⟩ := List.exists_cons_of_ne_nil h1
    exact ⟨x, _, rfl, Or.inl (h2 x (by simp))⟩
  · exact ⟨'(', _, rfl, Or.inr rfl⟩

theorem TokOk.ehead {p e : Str} (h : TokOk blanks groups p e) : ∃ q, e = '(' :: q := by
  obtain ⟨y, rfl, _⟩ := h.result
  exact ⟨_, rfl⟩

/-- the first character of what stands in the text for a token -/
theorem tok_head {p e : Str} (h : TokOk blanks groups p e) (D : List Str) (t : Str) :
    ∃ x q, (if p ∈ D then e else p) ++ t = x :: q ∧ (Word x ∨ x = '(') ∧ (Word x → p ∉ D) := by
  by_cases hp : p ∈ D
  · obtain ⟨q, rfl⟩ := h.ehead
    exact ⟨'(', q ++ t, by simp [hp], Or.inr rfl, fun h => absurd h not_word_lp⟩
  · obtain ⟨x, q, rfl, hx⟩ := h.head
    exact ⟨x, q ++ t, by simp [hp], hx, fun _ => hp⟩

/-- blanks and a digit -/
def STail (blanks : Bool) (t : Str) : Prop := ∃ b d r, (∀ c ∈ b, blanks = true ∧ Blank c) ∧ Digit d ∧ t = b ++ d :: r

theorem stail_mixed (D : List Str) : ∀ {r : List Seg}, Valid blanks groups r → STail blanks (mixed D r) → STail blanks (mixed [] r)
  | [], _, h => h
  | .chr c :: r, hv, ⟨b, d, t, hb, hd, e⟩ => by
    rw [mixed] at e ⊢
    cases b with
    | nil =>
      simp only [List.nil_append, List.cons.injEq] at e
      exact ⟨[], d, mixed [] r, by simp, hd, by rw [e.1]; rfl⟩
    | cons x b =>
      simp only [List.cons_append, List.cons.injEq] at e
      obtain ⟨b', d', t', h1, h2, h3⟩ := stail_mixed D hv.2 ⟨b, d, t, fun c hc => hb c (List.mem_cons_of_mem _ hc), hd, e.2⟩
      exact ⟨x :: b', d', t', by
        intro c hc
        rcases List.mem_cons.1 hc with rfl | hc
        · exact hb _ (by simp)
        · exact h1 c hc, h2, by rw [h3, e.1]; rfl⟩
  | .tok p e' :: r, hv, ⟨b, d, t, hb, hd, e⟩ => by
    rw [mixed] at e
    obtain ⟨x, q, e1, hx, hn⟩ := tok_head hv.1 D (mixed D r)
    rw [e1] at e
    cases b with
    | nil =>
      simp only [List.nil_append, List.cons.injEq] at e
      have hx' : Digit x := by rw [e.1]; exact hd
      have hp := hn (digit_word hx')
      rw [if_neg hp] at e1
      obtain ⟨z, s, rfl, _⟩ := hv.1.head
      simp only [List.cons_append, List.cons.injEq] at e1
      exact ⟨[], z, s ++ mixed [] r, by simp, by rw [e1.1]; exact hx', by simp [mixed]⟩
    | cons y b =>
      simp only [List.cons_append, List.cons.injEq] at e
      have hy := (hb y (by simp)).2
      rw [← e.1] at hy
      rcases hx with hx | hx
      · exact absurd hx (not_word_blank hy)
      · rw [hx] at hy; exact absurd hy (by decide)

/-- a character outside words and left parentheses is never part of a token's beginning -/
theorem chr_of_mixed (D : List Str) {c : Char} (h1 : ¬ Word c) (h2 : c ≠ '(') {t : Str} : ∀ {r : List Seg}, Valid blanks groups r → mixed D r = c :: t →
    ∃ r', r = .chr c :: r' ∧ mixed D r' = t
  | [], _, e => by simp [mixed] at e
  | .chr c' :: r, _, e => by
    simp only [mixed, List.cons.injEq] at e
    exact ⟨r, by rw [e.1], e.2⟩
  | .tok p e' :: r, hv, e => by
    rw [mixed] at e
    obtain ⟨x, q, e1, hx, _⟩ := tok_head hv.1 D (mixed D r)
    rw [e1] at e
    simp only [List.cons.injEq] at e
    rw [e.1] at hx
    rcases hx with hx | hx
    · exact absurd hx h1
    · exact absurd hx h2

theorem powTail_mixed (D : List Str) {r : List Seg} (hv : Valid blanks groups r) (h : PowTail blanks (mixed D r)) : PowTail blanks (mixed [] r) := by
  obtain ⟨b, d, t, hb, hd, e⟩ := h
  obtain ⟨r1, rfl, e1⟩ := chr_of_mixed D not_word_star (by decide) hv e
  obtain ⟨r2, rfl, e2⟩ := chr_of_mixed D not_word_star (by decide) hv.2 e1
  obtain ⟨b', d', t', h1, h2, h3⟩ := stail_mixed D hv.2.2 ⟨b, d, t, hb, hd, e2⟩
  exact ⟨b', d', t', h1, h2, by simp [mixed, h3]⟩

/-- letters or digits and then two stars, blanks and a digit -/
def WTail (blanks : Bool) (t : Str) : Prop := ∃ w u, (∀ c ∈ w, Word c) ∧ PowTail blanks u ∧ t = w ++ u

theorem wtail_mixed (D : List Str) : ∀ {r : List Seg}, Valid blanks groups r → WTail blanks (mixed D r) → WTail blanks (mixed [] r)
  | [], _, h => h
  | .chr c :: r, hv, ⟨w, u, hw, hu, e⟩ => by
    cases w with
    | nil =>
      rw [List.nil_append] at e
      rw [← e] at hu
      exact ⟨[], _, by simp, powTail_mixed D hv hu, rfl⟩
    | cons x w =>
      rw [mixed] at e ⊢
      simp only [List.cons_append, List.cons.injEq] at e
      obtain ⟨w', u', h1, h2, h3⟩ := wtail_mixed D hv.2 ⟨w, u, fun c hc => hw c (List.mem_cons_of_mem _ hc), hu, e.2⟩
      exact ⟨x :: w', u', by
        intro c hc
        rcases List.mem_cons.1 hc with rfl | hc
        · exact hw _ (by simp)
        · exact h1 c hc, h2, by rw [h3, e.1]; rfl⟩
  | .tok p e' :: r, hv, ⟨w, u, hw, hu, e⟩ => by
    rw [mixed] at e
    obtain ⟨x, q, e1, hx, hn⟩ := tok_head hv.1 D (mixed D r)
    rw [e1] at e
    cases w with
    | nil =>
      obtain ⟨b, d, t, _, _, rfl⟩ := hu
      simp only [List.nil_append, List.cons.injEq] at e
      rw [e.1] at hx
      rcases hx with hx | hx
      · exact absurd hx not_word_star
      · exact absurd hx (by decide)
    | cons y w =>
      simp only [List.cons_append, List.cons.injEq] at e
      have hx' : Word x := by rw [e.1]; exact hw y (by simp)
      rw [if_neg (hn hx')] at e1
      rcases hv.1.source with ⟨w0, b, d, _, h2, h3, h4, h5, rfl⟩ | ⟨_, c, d, _, _, _, _, _, rfl⟩
      · obtain ⟨d0, d1, rfl⟩ := List.exists_cons_of_ne_nil h4
        exact ⟨w0, '*' :: '*' :: (b ++ d0 :: (d1 ++ mixed [] r)), h2, ⟨b, d0, d1 ++ mixed [] r, h3, h5 d0 (by simp), rfl⟩, by simp [mixed]⟩
      · simp only [List.cons_append, List.cons.injEq] at e1
        rw [← e1.1] at hx'
        exact absurd hx' not_word_lp

/-- no parentheses, then a right parenthesis, two stars and a digit -/
def GTail (t : Str) : Prop := ∃ c d u, (∀ a ∈ c, ¬ Paren a) ∧ Digit d ∧ t = c ++ ')' :: '*' :: '*' :: d :: u

theorem gtail_cons {c : Char} {t : Str} (hc : ¬ Paren c) (h : GTail t) : GTail (c :: t) := by
  obtain ⟨c', d, u, h1, h2, h3⟩ := h
  refine ⟨c :: c', d, u, ?_, h2, by rw [h3]; rfl⟩
  intro a ha
  rcases List.mem_cons.1 ha with rfl | ha
  · exact hc
  · exact h1 a ha

theorem gtail_append {s t : Str} (hs : ∀ c ∈ s, ¬ Paren c) (h : GTail t) : GTail (s ++ t) := by
  induction s with
  | nil => exact h
  | cons c s ih => exact gtail_cons (hs c (by simp)) (ih fun a ha => hs a (List.mem_cons_of_mem _ ha))

theorem gtail_drop {s t : Str} (hs : ∀ c ∈ s, ¬ Paren c) (h : GTail (s ++ t)) : GTail t := by
  induction s with
  | nil => exact h
  | cons c s ih =>
    apply ih (fun a ha => hs a (List.mem_cons_of_mem _ ha))
    obtain ⟨c', d, u, h1, h2, h3⟩ := h
    cases c' with
    | nil =>
      simp only [List.cons_append, List.nil_append, List.cons.injEq] at h3
      exact absurd (Or.inr h3.1) (hs c (by simp))
    | cons y c' =>
      simp only [List.cons_append, List.cons.injEq] at h3
      exact ⟨c', d, u, fun a ha => h1 a (List.mem_cons_of_mem _ ha), h2, h3.2⟩

theorem gtail_mixed (D : List Str) : ∀ {r : List Seg}, Valid blanks groups r → GTail (mixed D r) → GTail (mixed [] r)
  | [], _, h => h
  | .chr c :: r, hv, ⟨c', d, u, h1, h2, e⟩ => by
    cases c' with
    | nil =>
      simp only [mixed, List.nil_append, List.cons.injEq] at e
      have : PowTail false (mixed D r) := ⟨[], d, u, by simp, h2, by rw [e.2]; rfl⟩
      obtain ⟨r1, rfl, e1⟩ := chr_of_mixed D not_word_star (by decide) hv.2 e.2
      obtain ⟨r2, rfl, e2⟩ := chr_of_mixed D not_word_star (by decide) hv.2.2 e1
      obtain ⟨b', d', t', h1, h2, h3⟩ := stail_mixed (blanks := blanks) D hv.2.2.2 ⟨[], d, u, by simp, h2, e2⟩
      cases r2 with
      | nil => simp [mixed] at e2
      | cons s r3 =>
        cases s with
        | chr c3 =>
          simp only [mixed, List.cons.injEq] at e2
          exact ⟨[], c3, mixed [] r3, by simp, by rw [e2.1]; assumption, by simp [mixed, e.1]⟩
        | tok p q =>
          rw [mixed] at e2
          obtain ⟨x, y, e3, _, hn⟩ := tok_head hv.2.2.2.1 D (mixed D r3)
          rw [e3] at e2
          simp only [List.cons.injEq] at e2
          have hx : Digit x := by rw [e2.1]; assumption
          rw [if_neg (hn (digit_word hx))] at e3
          obtain ⟨z, s, rfl, _⟩ := hv.2.2.2.1.head
          simp only [List.cons_append, List.cons.injEq] at e3
          exact ⟨[], z, s ++ mixed [] r3, by simp, by rw [e3.1]; exact hx, by simp [mixed, e.1]⟩
    | cons x c' =>
      rw [mixed] at e ⊢
      simp only [List.cons_append, List.cons.injEq] at e
      exact gtail_cons (by rw [e.1]; exact h1 x (by simp)) (gtail_mixed D hv.2 ⟨c', d, u, fun a ha => h1 a (List.mem_cons_of_mem _ ha), h2, e.2⟩)
  | .tok p e' :: r, hv, h => by
    obtain ⟨c', d, u, h1, h2, e⟩ := h
    have e0 := e
    rw [mixed] at e
    obtain ⟨x, q, e1, hx, hn⟩ := tok_head hv.1 D (mixed D r)
    rw [e1] at e
    have hx' : Word x := by
      rcases hx with hx | hx
      · exact hx
      · cases c' with
        | nil => simp only [List.nil_append, List.cons.injEq] at e; rw [hx] at e; exact absurd e.1 (by decide)
        | cons y c' =>
          simp only [List.cons_append, List.cons.injEq] at e
          exact absurd (Or.inl (by rw [← e.1, hx])) (h1 y (by simp))
    have hp := hn hx'
    rcases hv.1.source with ⟨w0, b, d0, _, g2, g3, g4, g5, rfl⟩ | ⟨_, c, d, _, _, _, _, _, rfl⟩
    · have hs : ∀ c ∈ w0 ++ '*' :: '*' :: (b ++ d0), ¬ Paren c := by
        intro c hc
        simp only [List.mem_append, List.mem_cons] at hc
        rcases hc with hc | rfl | rfl | hc | hc
        · exact word_not_paren (g2 c hc)
        · exact star_not_paren
        · exact star_not_paren
        · exact blank_not_paren (g3 c hc).2
        · exact word_not_paren (digit_word (g5 c hc))
      have e2 : GTail (mixed D (.tok (w0 ++ '*' :: '*' :: (b ++ d0)) e' :: r)) := ⟨c', d, u, h1, h2, e0⟩
      rw [mixed, if_neg hp] at e2
      rw [mixed, if_neg (by simp)]
      exact gtail_append hs (gtail_mixed D hv.2.2 (gtail_drop hs e2))
    · rw [if_neg hp] at e1
      simp only [List.cons_append, List.cons.injEq] at e1
      rw [← e1.1] at hx'
      exact absurd hx' not_word_lp

theorem chr_seen (D : List Str) {c : Char} {r : List Seg} (h : ¬ BeginsPower blanks groups (c :: mixed [] r)) (hv : Valid blanks groups r) :
    matchP blanks groups (c :: mixed D r) = none := by
  by_contra hn
  apply h
  rcases beginsPower_of_matchP hn with ⟨w, b, d, t, h1, h2, h3, h4, e⟩ | ⟨hg, c', d, t, h1, h2, h3, e⟩
  · obtain ⟨x, w, rfl⟩ := List.exists_cons_of_ne_nil h1
    simp only [List.cons_append, List.cons.injEq] at e
    obtain ⟨w', u', g1, ⟨b', d', t', g2, g3, rfl⟩, g4⟩ := wtail_mixed D hv
      ⟨w, _, fun a ha => h2 a (List.mem_cons_of_mem _ ha), ⟨b, d, t, h3, h4, rfl⟩, e.2⟩
    refine Or.inl ⟨c :: w', b', d', t', by simp, ?_, g2, g3, by rw [g4]; rfl⟩
    intro a ha
    rcases List.mem_cons.1 ha with rfl | ha
    · rw [e.1]; exact h2 x (by simp)
    · exact g1 a ha
  · simp only [List.cons.injEq] at e
    obtain ⟨c2, d2, t2, g1, g2, g3⟩ := gtail_mixed D hv ⟨c', d, t, h2, h3, e.2⟩
    refine Or.inr ⟨hg, c2, d2, t2, ?_, g1, g2, by rw [g3, e.1]⟩
    rintro rfl
    obtain ⟨r', rfl, _⟩ := chr_of_mixed [] not_word_rp (by decide) hv g3
    obtain ⟨x, c', rfl⟩ := List.exists_cons_of_ne_nil h1
    simp only [mixed, List.cons_append, List.cons.injEq] at e
    exact h2 x (by simp) (Or.inr e.2.1.symm)

theorem follows_stops (D : List Str) : ∀ {r : List Seg}, Valid blanks groups r → Follows blanks (mixed [] r) → Stops Word (mixed D r)
  | [], _, _ => stops_nil _
  | .chr c :: r, _, h => by
    intro c' t e
    rw [mixed] at e
    exact h.1 c' (mixed [] r) (by rw [mixed]; simp only [List.cons.injEq] at e; rw [e.1])
  | .tok p e' :: r, hv, h => by
    intro c' t e hw
    rw [mixed] at e
    obtain ⟨x, q, e1, hx, hn⟩ := tok_head hv.1 D (mixed D r)
    rw [e1] at e
    simp only [List.cons.injEq] at e
    rw [← e.1] at hw
    rw [if_neg (hn hw)] at e1
    obtain ⟨z, s, rfl, _⟩ := hv.1.head
    simp only [List.cons_append, List.cons.injEq] at e1
    exact h.1 z (s ++ mixed [] r) (by simp [mixed]) (by rw [e1.1]; exact hw)

theorem follows_tail (D : List Str) {r : List Seg} (hv : Valid blanks groups r) (h : Follows blanks (mixed [] r)) : ¬ PowTail blanks (mixed D r) :=
  fun hp => h.2 (powTail_mixed D hv hp)

theorem stops_digit {t : Str} (h : Stops Word t) : Stops Digit t := fun c r e hd => h c r e (digit_word hd)

theorem matchP_of_W {s : Str} {n : ℕ} (h : matchW blanks s = some n) : matchP blanks groups s = some n := by
  rw [matchP, h, Option.some_or]

theorem matchP_lp {s : Str} : matchP blanks true ('(' :: s) = matchGroup ('(' :: s) := by
  rw [matchP, matchW_head (stops_cons not_word_lp s), Option.none_or]; rfl

theorem matchP_dead {s : Str} (h : Stops Word s) (h' : ∀ r, s ≠ '(' :: r) : matchP blanks groups s = none := by
  rw [matchP, matchW_head h, matchGroup_head h']; simp

theorem matchP_digits {x M : Str} (hx : x ≠ []) (hx' : ∀ c ∈ x, Digit c) (hM : Stops Word M) (hM' : ¬ PowTail blanks M) :
    matchP blanks groups (x ++ M) = none := by
  have hw : ∀ c ∈ x, Word c := fun c hc => digit_word (hx' c hc)
  have h1 : matchW blanks (x ++ M) = none := by
    by_contra hn
    obtain ⟨w, t, _, hw', ht, e⟩ := matchW_begins hn
    have hs : Stops Word t := by
      obtain ⟨b, d, r, _, _, rfl⟩ := ht
      exact stops_cons not_word_star _
    obtain ⟨_, rfl⟩ := run_unique hw hw' hM hs e
    exact hM' ht
  obtain ⟨c, y, rfl⟩ := List.exists_cons_of_ne_nil hx
  have h2 : matchGroup (c :: y ++ M) = none := matchGroup_head fun r e => by
    simp only [List.cons_append, List.cons.injEq] at e
    exact not_word_lp (by rw [← e.1]; exact hw c (by simp))
  rw [matchP, h1, h2]; simp

theorem tok_suffix {p e M : Str} (h : TokOk blanks groups p e) (hM : Stops Word M) (hM' : ¬ PowTail blanks M) {x : Str} (hx : x ≠ []) (hs : x <:+ p) :
    matchP blanks groups (x ++ M) = none ∨ matchP blanks groups (x ++ M) = some x.length := by
  rcases h.source with ⟨w, b, d, h1, h2, h3, h4, h5, rfl⟩ | ⟨rfl, c, d, h1, h2, h3, h4, h5, rfl⟩
  · rcases suffix_append_cases hs with hs | ⟨w', hw, hsw, rfl⟩
    · left
      rcases List.suffix_cons_iff.1 hs with rfl | hs
      · exact matchP_dead (stops_cons not_word_star _) (by simp)
      rcases List.suffix_cons_iff.1 hs with rfl | hs
      · exact matchP_dead (stops_cons not_word_star _) (by simp)
      rcases suffix_append_cases hs with hs | ⟨b', hb, hsb, rfl⟩
      · exact matchP_digits hx (fun c hc => h5 c (hs.subset hc)) hM hM'
      · obtain ⟨z, y, rfl⟩ := List.exists_cons_of_ne_nil hb
        have hz := (h3 z (hsb.subset (by simp))).2
        refine matchP_dead (stops_cons (not_word_blank hz) _) ?_
        intro r e
        simp only [List.cons_append, List.cons.injEq] at e
        exact blank_not_paren hz (Or.inl e.1)
    · right
      exact matchP_of_W (matchW_some hw (fun c hc => h2 c (hsw.subset hc)) h3 h4 h5 (stops_digit hM))
  · rcases List.suffix_cons_iff.1 hs with rfl | hs
    · right
      exact matchP_lp.trans (matchGroup_some h1 h2 h4 h5 (stops_digit hM))
    · left
      rcases suffix_append_cases hs with hs | ⟨c', hc, hsc, rfl⟩
      · rcases List.suffix_cons_iff.1 hs with rfl | hs
        · exact matchP_dead (stops_cons not_word_rp _) (by simp)
        rcases List.suffix_cons_iff.1 hs with rfl | hs
        · exact matchP_dead (stops_cons not_word_star _) (by simp)
        rcases List.suffix_cons_iff.1 hs with rfl | hs
        · exact matchP_dead (stops_cons not_word_star _) (by simp)
        exact matchP_digits hx (fun c hc => h5 c (hs.subset hc)) hM hM'
      · have e : c' ++ ')' :: '*' :: '*' :: d ++ M = c' ++ ')' :: ('*' :: '*' :: d ++ M) := by simp
        have hW : matchW blanks (c' ++ ')' :: ('*' :: '*' :: d ++ M)) = none := matchW_quiet fun h => h3 (h.trans hsc.isInfix)
        rw [e, matchP, hW, matchGroup_head, Option.none_or, if_pos rfl]
        obtain ⟨z, y, rfl⟩ := List.exists_cons_of_ne_nil hc
        intro r e
        simp only [List.cons_append, List.cons.injEq] at e
        exact h2 z (hsc.subset (by simp)) (Or.inl e.1)

theorem tok_whole {p e M : Str} (h : TokOk blanks groups p e) (hM : Stops Word M) : matchP blanks groups (p ++ M) = some p.length := by
  rcases h.source with ⟨w, b, d, h1, h2, h3, h4, h5, rfl⟩ | ⟨rfl, c, d, h1, h2, h3, h4, h5, rfl⟩
  · exact matchP_of_W (matchW_some h1 h2 h3 h4 h5 (stops_digit hM))
  · exact matchP_lp.trans (matchGroup_some h1 h2 h4 h5 (stops_digit hM))

theorem tok_anchor {p e : Str} (h : TokOk blanks groups p e) : Anchor (matchP blanks groups) p := by
  rintro T ⟨M, rfl⟩
  rcases h.source with ⟨w, b, d, h1, h2, h3, h4, h5, rfl⟩ | ⟨rfl, c, d, h1, h2, h3, h4, h5, rfl⟩
  · obtain ⟨n, e1, e2⟩ := matchW_anchor (blanks := blanks) h1 h2 h3 h4 h5 M
    exact ⟨n, matchP_of_W e1, e2⟩
  · obtain ⟨n, e1, e2⟩ := matchGroup_anchor h1 h2 h4 h5 M
    exact ⟨n, matchP_lp.trans e1, e2⟩

theorem tok_result {p e M : Str} (h : TokOk blanks groups p e) (hM' : ¬ PowTail blanks M) {x : Str} (hx : x ≠ []) (hs : x <:+ e) :
    matchP blanks groups (x ++ M) = none := by
  obtain ⟨y, rfl, hy⟩ := h.result
  rcases suffix_append_cases hs with hs | ⟨y', _, hsy, rfl⟩
  · have : x = [')'] := by
      rcases List.suffix_cons_iff.1 hs with h | h
      · exact h
      · exact absurd (List.suffix_nil.1 h) hx
    subst this
    exact matchP_dead (stops_cons not_word_rp _) (by simp)
  · have e : y' ++ [')'] ++ M = y' ++ ')' :: M := by simp
    rw [e]
    refine matchP_quiet (fun h => ?_) hM'
    have h2 := h.trans hsy.isInfix
    rcases List.infix_cons_iff.1 h2 with h3 | h3
    · obtain ⟨u, hu⟩ := h3
      simp at hu
    · exact hy h3

theorem valid_seen : ∀ {r : List Seg}, Valid blanks groups r → Seen (matchP blanks groups) r
  | [], _ => trivial
  | .chr _ :: _, h => ⟨fun D => chr_seen D h.1 h.2, valid_seen h.2⟩
  | .tok p e :: r, h => by
    obtain ⟨x, q, hp, _⟩ := h.1.head
    exact ⟨by simp [hp], fun D => tok_whole h.1 (follows_stops D h.2.2 h.2.1),
      fun D x hx hs => tok_suffix h.1 (follows_stops D h.2.2 h.2.1) (follows_tail D h.2.2 h.2.1) hx hs,
      fun D x hx hs => tok_result h.1 (follows_tail D h.2.2 h.2.1) hx hs, valid_seen h.2.2⟩

theorem valid_tok : ∀ {r : List Seg}, Valid blanks groups r → ∀ q ∈ toks r, TokOk blanks groups q.1 q.2
  | [], _, q, hq => by simp [toks] at hq
  | .chr _ :: _, h, q, hq => valid_tok h.2 q hq
  | .tok p e :: r, h, q, hq => by
    rcases List.mem_cons.1 hq with rfl | hq
    · exact h.1
    · exact valid_tok h.2.2 q hq

end SymPy
end Meshless
