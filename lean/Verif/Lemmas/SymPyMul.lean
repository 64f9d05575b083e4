import Verif.Lemmas.SymPySeen

/-! `pow2mul` on a text cut into pieces. -/

set_option autoImplicit false

namespace Meshless
namespace SymPy
open Spec

/-! ### infixes -/

theorem pair_infix_append {p q : Char} {a b : Str} (h : [p, q] <:+: a ++ b) :
    [p, q] <:+: a ∨ [p, q] <:+: b ∨ ∃ a' b', a = a' ++ [p] ∧ b = q :: b' := by
  obtain ⟨u, v, e⟩ := h
  induction a generalizing u with
  | nil => exact Or.inr (Or.inl ⟨u, v, e⟩)
  | cons x a ih =>
    cases u with
    | nil =>
      simp only [List.nil_append, List.cons_append, List.cons.injEq] at e
      cases a with
      | nil =>
        right; right
        exact ⟨[], v, by simp [e.1], e.2.symm⟩
      | cons y a =>
        simp only [List.cons_append, List.cons.injEq] at e
        left
        exact ⟨[], a, by rw [e.1, e.2.1]; rfl⟩
    | cons y u =>
      simp only [List.cons_append, List.cons.injEq] at e
      rcases ih u e.2 with h | h | ⟨a', b', h1, h2⟩
      · exact Or.inl (h.trans (List.suffix_cons x a).isInfix)
      · exact Or.inr (Or.inl h)
      · exact Or.inr (Or.inr ⟨x :: a', b', by rw [h1]; rfl, h2⟩)

/-- a text without the character `z` that occurs in `a ++ z :: b` occurs in `a` or in `b` -/
theorem sep_infix {l a b : Str} {z : Char} (hz : z ∉ l) (h : l <:+: a ++ z :: b) : l <:+: a ∨ l <:+: b := by
  obtain ⟨u, v, e⟩ := h
  rw [List.append_assoc] at e
  rcases List.append_eq_append_iff.1 e with ⟨c, h1, h2⟩ | ⟨c, h1, h2⟩
  · -- a = u ++ c, l ++ v = c ++ z :: b
    rcases List.append_eq_append_iff.1 h2 with ⟨c', g1, g2⟩ | ⟨c', g1, g2⟩
    · exact Or.inl ⟨u, c', by rw [h1, g1, List.append_assoc]⟩
    · cases c' with
      | nil =>
        rw [List.append_nil] at g1
        exact Or.inl ⟨u, [], by rw [h1, g1, List.append_nil]⟩
      | cons y c' =>
        simp only [List.cons_append, List.cons.injEq] at g2
        exact absurd (by rw [g1, g2.1]; simp) hz
  · cases c with
    | nil =>
      simp only [List.nil_append] at h2
      cases l with
      | nil => exact Or.inl ⟨[], a, rfl⟩
      | cons x l =>
        simp only [List.cons_append, List.cons.injEq] at h2
        exact absurd (by rw [h2.1]; simp) hz
    | cons y c =>
      simp only [List.cons_append, List.cons.injEq] at h2
      exact Or.inr ⟨c, v, by rw [h2.2, List.append_assoc]⟩

theorem infix_mem {l a : Str} (h : l <:+: a) {c : Char} (hc : c ∈ l) : c ∈ a := h.subset hc

/-! ### products -/

theorem join_times (v : Str) : ∀ n : ℕ, joinStr ['*'] (List.replicate n v) = times v n
  | 0 => rfl
  | 1 => by simp [joinStr, times, List.intercalate]
  | n + 2 => by
    have ih := join_times v (n + 1)
    rw [joinStr, List.intercalate] at ih ⊢
    rw [List.replicate_succ, List.replicate_succ, List.intersperse_cons_cons]
    rw [List.replicate_succ] at ih
    simp only [List.flatten_cons, ih, times]
    rfl

theorem product_times (v : Str) (n : ℕ) : product v (n : ℤ) = '(' :: (times v n ++ [')']) := by
  show '(' :: joinStr ['*'] (List.replicate (n : ℤ).toNat v) ++ [')'] = _
  rw [Int.toNat_natCast, join_times]; rfl

theorem times_mem {v : Str} {c : Char} : ∀ {n : ℕ}, c ∈ times v n → c = '*' ∨ c ∈ v
  | 0, h => by simp [times] at h
  | 1, h => Or.inr h
  | n + 2, h => by
    simp only [times, List.mem_append, List.mem_cons] at h
    rcases h with h | h | h
    · exact Or.inr h
    · exact Or.inl h
    · exact times_mem h

theorem times_head {v : Str} {x : Char} {u : Str} (hv : v = x :: u) : ∀ n : ℕ, ∃ u', times v (n + 1) = x :: u'
  | 0 => ⟨u, by rw [times, hv]⟩
  | n + 1 => ⟨_, by rw [times, hv]; rfl⟩

theorem times_stars {v : Str} (hv : v ≠ []) (h : ¬ ['*', '*'] <:+: v) (hh : ∀ u, v ≠ '*' :: u) (hl : ∀ u, v ≠ u ++ ['*']) :
    ∀ n : ℕ, ¬ ['*', '*'] <:+: times v n
  | 0 => by simp [times]
  | 1 => h
  | n + 2 => by
    intro hi
    rw [times] at hi
    obtain ⟨x, u, hx⟩ := List.exists_cons_of_ne_nil hv
    obtain ⟨u', hu⟩ := times_head hx n
    have hx' : x ≠ '*' := fun e => hh u (by rw [hx, e])
    rcases pair_infix_append hi with hi | hi | ⟨a, b, h1, _⟩
    · exact h hi
    · rcases List.infix_cons_iff.1 hi with hi | hi
      · rw [hu] at hi
        obtain ⟨t, ht⟩ := hi
        simp only [List.cons_append, List.cons.injEq] at ht
        exact hx' ht.2.1.symm
      · exact times_stars hv h hh hl (n + 1) hi
    · exact hl a h1

theorem times_infix {l v : Str} (hl : '*' ∉ l) (hl' : l ≠ []) (h : ¬ l <:+: v) : ∀ n : ℕ, ¬ l <:+: times v n
  | 0 => by simpa [times] using hl'
  | 1 => h
  | n + 2 => by
    intro hi
    rcases sep_infix hl hi with hi | hi
    · exact h hi
    · exact times_infix hl hl' h (n + 1) hi

theorem stars_squeeze {c : Str} (h : ['*', '*'] <:+: c) : ['*', '*'] <:+: squeeze c := by
  obtain ⟨u, v, rfl⟩ := h
  exact ⟨squeeze u, squeeze v, by simp [squeeze]⟩

/-! ### splitting and numbers -/

theorem splitStr_none (sep : Str) : ∀ (x : Str), (∀ x', x' ≠ [] → x' <:+ x → ¬ sep <+: x') → splitStr sep x = [x]
  | [], _ => by rw [splitStr]
  | c :: x, h => by
    have h0 := h (c :: x) (by simp) (List.suffix_refl _)
    rw [splitStr, if_neg (by rw [List.isPrefixOf_iff_prefix]; exact h0), splitStr_none sep x fun x' hx hs => h x' hx (hs.trans (List.suffix_cons c x))]

theorem splitStr_one (sep : Str) (hs : sep ≠ []) (M : Str) : ∀ (x : Str), (∀ x', x' ≠ [] → x' <:+ x → ¬ sep <+: x' ++ (sep ++ M)) →
    splitStr sep (x ++ (sep ++ M)) = x :: splitStr sep M
  | [], _ => by
    obtain ⟨c, t, rfl⟩ := List.exists_cons_of_ne_nil hs
    rw [List.nil_append, List.cons_append, splitStr, if_pos (by rw [List.isPrefixOf_iff_prefix]; exact ⟨M, rfl⟩)]
    simp
  | c :: x, h => by
    have h0 := h (c :: x) (by simp) (List.suffix_refl _)
    rw [List.cons_append, splitStr, if_neg (by rw [List.isPrefixOf_iff_prefix]; exact h0),
      splitStr_one sep hs M x fun x' hx hs => h x' hx (hs.trans (List.suffix_cons c x))]

theorem splitStr_stars {a b : Str} (ha : ¬ ['*', '*'] <:+: a) (hl : ∀ u, a ≠ u ++ ['*']) (hb : ¬ ['*', '*'] <:+: b) :
    splitStr ['*', '*'] (a ++ '*' :: '*' :: b) = [a, b] := by
  have h1 := splitStr_one ['*', '*'] (by simp) b a (by
    intro x hx hs hp
    match x, hx, hs, hp with
    | [c], _, hs, hp =>
      obtain ⟨t, ht⟩ := hp
      simp only [List.cons_append, List.nil_append, List.cons.injEq] at ht
      obtain ⟨u, hu⟩ := hs
      exact hl u (by rw [← hu, ht.1])
    | c :: d :: x, _, hs, hp =>
      obtain ⟨t, ht⟩ := hp
      simp only [List.cons_append, List.nil_append, List.cons.injEq] at ht
      apply ha
      refine List.IsInfix.trans ?_ hs.isInfix
      exact ⟨[], x, by rw [← ht.1, ← ht.2.1]; rfl⟩)
  rw [show a ++ '*' :: '*' :: b = a ++ (['*', '*'] ++ b) from rfl, h1, splitStr_none]
  intro x hx hs hp
  exact hb (hp.isInfix.trans hs.isInfix)

theorem pyDigits_value : ∀ (d : Str) (a : ℕ), (∀ c ∈ d, Digit c) → pyDigits a d = some (d.foldl (fun a c => 10 * a + (c.toNat - 48)) a)
  | [], a, _ => by rw [pyDigits]; rfl
  | c :: d, a, h => by
    have hc := h c (by simp)
    have hc' : isDigit c = true := hc
    have hn : c ≠ '_' := by rintro rfl; exact absurd hc (by decide)
    have ih := pyDigits_value d (10 * a + (c.toNat - 48)) fun x hx => h x (List.mem_cons_of_mem _ hx)
    rw [pyDigits, if_pos hc', ih]
    · rfl
    · intro c' t e
      exact fun _ => hn e

theorem pyNat_value {d : Str} (hd : d ≠ []) (h : ∀ c ∈ d, Digit c) : pyNat d = some (numeral d) := by
  obtain ⟨c, d, rfl⟩ := List.exists_cons_of_ne_nil hd
  have hc : isDigit c = true := h c (by simp)
  rw [pyNat, if_pos hc, pyDigits_value d _ fun x hx => h x (List.mem_cons_of_mem _ hx), numeral, List.foldl_cons]
  simp

theorem strip_both {a s b : Str} (ha : ∀ c ∈ a, Blank c) (hb : ∀ c ∈ b, Blank c) (h1 : Stops Blank s) (hne : s ≠ []) (h2 : Stops Blank s.reverse) :
    strip (a ++ s ++ b) = s := by
  have hs : Stops Blank (s ++ b) := by
    obtain ⟨x, t, rfl⟩ := List.exists_cons_of_ne_nil hne
    exact stops_cons (h1 x t rfl) _
  obtain ⟨_, e1⟩ := takeWhile_run isSpace_iff (a := a) (t := s ++ b) ha hs
  obtain ⟨_, e2⟩ := takeWhile_run isSpace_iff (a := b.reverse) (t := s.reverse) (fun c hc => hb c (List.mem_reverse.1 hc)) h2
  rw [strip, List.append_assoc, e1, List.reverse_append, e2, List.reverse_reverse]

theorem digits_stop {d : Str} (h : ∀ c ∈ d, Digit c) : Stops Blank d := by
  rintro c r rfl hb
  exact not_digit_blank hb (h c (by simp))

theorem pyInt_value {a d b : Str} (ha : ∀ c ∈ a, Blank c) (hb : ∀ c ∈ b, Blank c) (hd : d ≠ []) (h : ∀ c ∈ d, Digit c) :
    pyInt (a ++ d ++ b) = some (numeral d : ℤ) := by
  rw [pyInt, strip_both ha hb (digits_stop h) hd (digits_stop fun c hc => h c (List.mem_reverse.1 hc))]
  have hn := pyNat_value hd h
  split
  · exact absurd (h '-' (by simp)) (by decide)
  · exact absurd (h '+' (by simp)) (by decide)
  · rw [hn]; rfl

/-! ### the replacement of a power -/

theorem word_stars {w : Str} (h : ∀ c ∈ w, Word c) : '*' ∉ w := fun hm => not_word_star (h _ hm)

theorem squeeze_word {w : Str} (h : ∀ c ∈ w, ¬ Blank c) : w.filter (· != ' ') = w := by
  rw [List.filter_eq_self]
  intro c hc
  have := h c hc
  rw [bne_iff_ne]
  rintro rfl
  exact this (by decide)

theorem powNew_pow {w b d : Str} (h2 : ∀ c ∈ w, Word c) (h3 : ∀ c ∈ b, Blank c) (h4 : d ≠ []) (h5 : ∀ c ∈ d, Digit c) :
    powNew (w ++ '*' :: '*' :: (b ++ d)) = .ok ('(' :: (times w (numeral d) ++ [')'])) := by
  have e : (w ++ '*' :: '*' :: (b ++ d)).filter (· != ' ') = w ++ '*' :: '*' :: (b.filter (· != ' ') ++ d) := by
    rw [List.filter_append, squeeze_word fun c hc hb => not_word_blank hb (h2 c hc)]
    simp only [List.filter_cons, List.filter_append, squeeze_word fun c hc hb => not_digit_blank hb (h5 c hc)]
    rfl
  have hb : ∀ c ∈ b.filter (· != ' '), Blank c := fun c hc => h3 c (List.mem_of_mem_filter hc)
  have hsplit : splitStr ['*', '*'] (w ++ '*' :: '*' :: (b.filter (· != ' ') ++ d)) = [w, b.filter (· != ' ') ++ d] := by
    apply splitStr_stars
    · exact fun h => word_stars h2 (infix_mem h (by simp))
    · exact fun u hu => word_stars h2 (by rw [hu]; simp)
    · intro h
      rcases List.mem_append.1 (infix_mem h (c := '*') (by simp)) with h | h
      · exact star_not_blank (hb _ h)
      · exact not_word_star (digit_word (h5 _ h))
  have hint : pyInt (b.filter (· != ' ') ++ d) = some (numeral d : ℤ) := by
    have := pyInt_value (b := []) hb (by simp) h4 h5
    rwa [List.append_nil] at this
  rw [powNew, e, show "**".toList = ['*', '*'] from rfl, hsplit]
  simp only [hint, product_times]

theorem powNew_grp {c d : Str} (h3 : ¬ ['*', '*'] <:+: squeeze c) (h4 : d ≠ []) (h5 : ∀ c ∈ d, Digit c) :
    powNew ('(' :: (c ++ ')' :: '*' :: '*' :: d)) = .ok ('(' :: (times ('(' :: (squeeze c ++ [')'])) (numeral d) ++ [')'])) := by
  have e : ('(' :: (c ++ ')' :: '*' :: '*' :: d)).filter (· != ' ') = ('(' :: (squeeze c ++ [')'])) ++ '*' :: '*' :: d := by
    have hc : c.filter (· != ' ') = squeeze c := by
      rw [squeeze]; congr 1; funext x; by_cases hx : x = ' ' <;> simp [hx]
    simp only [List.filter_cons, List.filter_append, squeeze_word fun c hc hb => not_digit_blank hb (h5 c hc), hc]
    simp
  have hsplit : splitStr ['*', '*'] (('(' :: (squeeze c ++ [')'])) ++ '*' :: '*' :: d) = ['(' :: (squeeze c ++ [')']), d] := by
    apply splitStr_stars
    · intro h
      rcases List.infix_cons_iff.1 h with h | h
      · obtain ⟨t, ht⟩ := h; simp at ht
      · rcases pair_infix_append h with h | h | ⟨a, b, _, h⟩
        · exact h3 h
        · have := h.length_le; simp at this
        · simp at h
    · intro u hu
      have := congrArg List.getLast? hu
      rw [← List.cons_append, List.getLast?_append, List.getLast?_append] at this
      simp at this
    · intro h
      exact not_word_star (digit_word (h5 _ (infix_mem h (by simp))))
  have hint : pyInt d = some (numeral d : ℤ) := by
    have := pyInt_value (a := []) (b := []) (by simp) (by simp) h4 h5
    rwa [List.append_nil, List.nil_append] at this
  rw [powNew, e, show "**".toList = ['*', '*'] from rfl, hsplit]
  simp only [hint, product_times]

theorem arrNew_pow {w d : Str} (h2 : ∀ c ∈ w, Word c) (h4 : d ≠ []) (h5 : ∀ c ∈ d, Digit c) :
    arrNew (w ++ '*' :: '*' :: d) = .ok ('(' :: (times w (numeral d) ++ [')'])) := by
  have hsplit : splitStr ['*', '*'] (w ++ '*' :: '*' :: d) = [w, d] := by
    apply splitStr_stars
    · exact fun h => word_stars h2 (infix_mem h (by simp))
    · exact fun u hu => word_stars h2 (by rw [hu]; simp)
    · exact fun h => not_word_star (digit_word (h5 _ (infix_mem h (by simp))))
  have hint : pyInt d = some (numeral d : ℤ) := by
    have := pyInt_value (a := []) (b := []) (by simp) (by simp) h4 h5
    rwa [List.append_nil, List.nil_append] at this
  rw [arrNew, show "**".toList = ['*', '*'] from rfl, hsplit]
  simp only [hint, product_times]

/-! ### the first pass -/

/-- the pieces as the power pattern sees them: powers are tokens, everything else single characters -/
def powSegs : List Piece → List Seg
  | [] => []
  | .chr c :: r => .chr c :: powSegs r
  | .pow w b d :: r => .tok (Piece.pow w b d).source (Piece.pow w b d).result :: powSegs r
  | .grp c d :: r => .tok (Piece.grp c d).source (Piece.grp c d).result :: powSegs r
  | .call v b d b' :: r => (Piece.call v b d b').source.map Seg.chr ++ powSegs r

theorem mixed_chars (D : List Str) (s : Str) (r : List Seg) : mixed D (s.map Seg.chr ++ r) = s ++ mixed D r := by
  induction s with
  | nil => rfl
  | cons c s ih => rw [List.map_cons, List.cons_append, mixed, ih]; rfl

theorem powSegs_source : ∀ l : List Piece, mixed [] (powSegs l) = sourceText l
  | [] => rfl
  | .chr c :: r => by rw [powSegs, mixed, powSegs_source r]; rfl
  | .pow w b d :: r => by rw [powSegs, mixed, powSegs_source r, if_neg (by simp)]; rfl
  | .grp c d :: r => by rw [powSegs, mixed, powSegs_source r, if_neg (by simp)]; rfl
  | .call v b d b' :: r => by rw [powSegs, mixed_chars, powSegs_source r]; rfl

theorem valid_chars {blanks groups : Bool} {r : List Seg} (hr : Valid blanks groups r) : ∀ (s : Str),
    (∀ x, x ≠ [] → x <:+ s → ¬ BeginsPower blanks groups (x ++ mixed [] r)) → Valid blanks groups (s.map Seg.chr ++ r)
  | [], _ => hr
  | c :: s, h => by
    rw [List.map_cons, List.cons_append, Valid]
    refine ⟨?_, valid_chars hr s fun x hx hs => h x hx (hs.trans (List.suffix_cons c s))⟩
    rw [mixed_chars]
    exact h (c :: s) (by simp) (List.suffix_refl _)

theorem last_rp (y u : Str) : y ++ [')'] ≠ u ++ ['*'] := by
  intro h
  have := congrArg List.getLast? h
  simp at this

theorem tokOk_pow {blanks groups : Bool} {w b d : Str} (h1 : w ≠ []) (h2 : ∀ c ∈ w, Word c) (h3 : ∀ c ∈ b, blanks = true ∧ Blank c) (h4 : d ≠ [])
    (h5 : ∀ c ∈ d, Digit c) : TokOk blanks groups (Piece.pow w b d).source (Piece.pow w b d).result :=
  ⟨⟨times w (numeral d), rfl, times_stars h1 (fun h => word_stars h2 (infix_mem h (by simp))) (fun u hu => word_stars h2 (by rw [hu]; simp))
    (fun u hu => word_stars h2 (by rw [hu]; simp)) _⟩, Or.inl ⟨w, b, d, h1, h2, h3, h4, h5, rfl⟩⟩

theorem tokOk_grp {blanks : Bool} {c d : Str} (h1 : c ≠ []) (h2 : ∀ a ∈ c, ¬ Paren a) (h3 : ¬ ['*', '*'] <:+: squeeze c) (h4 : d ≠ [])
    (h5 : ∀ c ∈ d, Digit c) : TokOk blanks true (Piece.grp c d).source (Piece.grp c d).result := by
  refine ⟨⟨times ('(' :: (squeeze c ++ [')'])) (numeral d), rfl, times_stars (by simp) ?_ (by simp) ?_ _⟩,
    Or.inr ⟨rfl, c, d, h1, h2, fun h => h3 (stars_squeeze h), h4, h5, rfl⟩⟩
  · intro h
    rcases List.infix_cons_iff.1 h with h | h
    · obtain ⟨t, ht⟩ := h; simp at ht
    · rcases pair_infix_append h with h | h | ⟨a, b, _, h⟩
      · exact h3 h
      · have := h.length_le; simp at this
      · simp at h
  · intro u hu
    exact last_rp ('(' :: squeeze c) u hu

theorem powSegs_valid {blanks groups : Bool} : ∀ {l : List Piece}, Cut blanks groups l → Valid blanks groups (powSegs l)
  | [], _ => trivial
  | .chr c :: r, h => by
    rw [powSegs, Valid, powSegs_source]
    exact ⟨h.1, powSegs_valid h.2⟩
  | .pow w b d :: r, ⟨h1, h2, h3, h4, h5, h6, h7⟩ => by
    rw [powSegs, Valid, powSegs_source]
    exact ⟨tokOk_pow h1 h2 h3 h4 h5, h6, powSegs_valid h7⟩
  | .grp c d :: r, ⟨h0, h1, h2, h3, h4, h5, h6, h7⟩ => by
    subst h0
    rw [powSegs, Valid, powSegs_source]
    exact ⟨tokOk_grp h1 h2 h3 h4 h5, h6, powSegs_valid h7⟩
  | .call v b d b' :: r, h => by
    rw [powSegs]
    exact valid_chars (powSegs_valid h.2) _ (by rw [powSegs_source]; exact h.1)

theorem toks_chars (s : Str) (r : List Seg) : toks (s.map Seg.chr ++ r) = toks r := by
  induction s with
  | nil => rfl
  | cons c s ih => rw [List.map_cons, List.cons_append, toks, ih]

theorem powSegs_new {groups : Bool} : ∀ {l : List Piece}, Cut true groups l → ∀ q ∈ toks (powSegs l), powNew q.1 = .ok q.2
  | [], _, q, hq => by simp [powSegs, toks] at hq
  | .chr c :: r, h, q, hq => powSegs_new h.2 q hq
  | .pow w b d :: r, ⟨h1, h2, h3, h4, h5, h6, h7⟩, q, hq => by
    rw [powSegs, toks] at hq
    rcases List.mem_cons.1 hq with rfl | hq
    · exact powNew_pow h2 (fun c hc => (h3 c hc).2) h4 h5
    · exact powSegs_new h7 q hq
  | .grp c d :: r, ⟨h0, h1, h2, h3, h4, h5, h6, h7⟩, q, hq => by
    rw [powSegs, toks] at hq
    rcases List.mem_cons.1 hq with rfl | hq
    · exact powNew_grp h3 h4 h5
    · exact powSegs_new h7 q hq
  | .call v b d b' :: r, h, q, hq => by
    rw [powSegs, toks_chars] at hq
    exact powSegs_new h.2 q hq

/-- the first pass of `pow2mul` -/
theorem first_pass {l : List Piece} (h : Cut true true l) :
    pairs powNew (findAll matchPow (sourceText l)) = .ok (toks (powSegs l)) ∧
    substAll (sourceText l) (longestFirst (toks (powSegs l))) = final (powSegs l) := by
  have hv := powSegs_valid h
  have hs := valid_seen hv
  have hnew := powSegs_new h
  have hf := findAll_seen hs
  rw [powSegs_source, matchP_pow] at hf
  refine ⟨by rw [hf]; exact pairs_ok hnew, ?_⟩
  have := substAll_seen hs (longestFirst (toks (powSegs l))) [] (by
    intro q hq
    rw [longestFirst_mem] at hq
    have ht := valid_tok hv q hq
    obtain ⟨x, y, hp, _⟩ := ht.head
    exact ⟨by simp [hp], tok_anchor ht⟩) (by
    intro q hq q' e hm he
    rw [longestFirst_mem] at hq
    have h1 := hnew q hq
    have h2 := hnew _ hm
    simp only [he] at h2
    rw [h1] at h2
    simpa using h2.symm) (by
    intro q e hm
    right
    exact List.mem_map.2 ⟨(q, e), (longestFirst_mem _ _).2 hm, rfl⟩) (longestFirst_pairwise _)
  rwa [powSegs_source] at this

end SymPy
end Meshless
