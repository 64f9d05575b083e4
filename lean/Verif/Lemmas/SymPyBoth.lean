import Verif.Lemmas.SymPyCall

/-! Both passes of `pow2mul` together, and the power expansion of `mprint_as_array`. -/

set_option autoImplicit false

namespace Meshless
namespace SymPy
open Spec

/-- the pieces as the pattern for calls sees them: calls are tokens; powers are single characters, replaced or not -/
def callSegs (rep : Bool) : List Piece → List Seg
  | [] => []
  | .chr c :: r => .chr c :: callSegs rep r
  | .pow w b d :: r => (if rep then (Piece.pow w b d).result else (Piece.pow w b d).source).map Seg.chr ++ callSegs rep r
  | .grp c d :: r => (if rep then (Piece.grp c d).result else (Piece.grp c d).source).map Seg.chr ++ callSegs rep r
  | .call v b d b' :: r => .tok (Piece.call v b d b').source (Piece.call v b d b').result :: callSegs rep r

theorem callSegs_source : ∀ l : List Piece, mixed [] (callSegs false l) = sourceText l
  | [] => rfl
  | .chr c :: r => by rw [callSegs, mixed, callSegs_source r]; rfl
  | .pow w b d :: r => by rw [callSegs, mixed_chars, callSegs_source r]; rfl
  | .grp c d :: r => by rw [callSegs, mixed_chars, callSegs_source r]; rfl
  | .call v b d b' :: r => by rw [callSegs, mixed, callSegs_source r, if_neg (by simp)]; rfl

theorem final_chars (s : Str) (r : List Seg) : final (s.map Seg.chr ++ r) = s ++ final r := by
  induction s with
  | nil => rfl
  | cons c s ih => rw [List.map_cons, List.cons_append, final, ih]; rfl

theorem callSegs_mid : ∀ l : List Piece, mixed [] (callSegs true l) = final (powSegs l)
  | [] => rfl
  | .chr c :: r => by rw [callSegs, mixed, callSegs_mid r]; rfl
  | .pow w b d :: r => by rw [callSegs, mixed_chars, callSegs_mid r]; rfl
  | .grp c d :: r => by rw [callSegs, mixed_chars, callSegs_mid r]; rfl
  | .call v b d b' :: r => by rw [callSegs, mixed, callSegs_mid r, if_neg (by simp), powSegs, final_chars]

theorem callSegs_result : ∀ l : List Piece, final (callSegs true l) = resultText l
  | [] => rfl
  | .chr c :: r => by rw [callSegs, final, callSegs_result r]; rfl
  | .pow w b d :: r => by rw [callSegs, final_chars, callSegs_result r]; rfl
  | .grp c d :: r => by rw [callSegs, final_chars, callSegs_result r]; rfl
  | .call v b d b' :: r => by rw [callSegs, final, callSegs_result r]; rfl

theorem callSegs_toks (rep : Bool) : ∀ l : List Piece, toks (callSegs rep l) = toks (callSegs true l)
  | [] => rfl
  | .chr c :: r => by rw [callSegs, callSegs, toks, toks, callSegs_toks rep r]
  | .pow w b d :: r => by rw [callSegs, callSegs, toks_chars, toks_chars, callSegs_toks rep r]
  | .grp c d :: r => by rw [callSegs, callSegs, toks_chars, toks_chars, callSegs_toks rep r]
  | .call v b d b' :: r => by rw [callSegs, callSegs, toks, toks, callSegs_toks rep r]

/-- after a letter or digit comes a character or a group -/
theorem after_word {rep : Bool} {c x : Char} {t : Str} {D : List Str} {l : List Piece} (hw : Word c) (hc : Cut true true (.chr c :: l)) (ha : Calls (.chr c :: l))
    (e : mixed D (callSegs rep l) = x :: t) :
    (∃ r, l = .chr x :: r ∧ mixed D (callSegs rep r) = t) ∨ (x = '(' ∧ ∃ s, sourceText l = '(' :: s) := by
  match l, hc, ha, e with
  | [], _, _, e => simp [callSegs, mixed] at e
  | .chr y :: r, _, _, e =>
    rw [callSegs, mixed] at e
    simp only [List.cons.injEq] at e
    exact Or.inl ⟨r, by rw [e.1], e.2⟩
  | .pow w b d :: r, hc, _, _ =>
    exfalso
    obtain ⟨h0, h1, h2, h3, h4, h5, _⟩ := hc
    apply h0
    obtain ⟨z, y, rfl⟩ := List.exists_cons_of_ne_nil h4
    refine Or.inl ⟨c :: w, b, z, y ++ sourceText r, by simp, ?_, h3, h5 z (by simp), ?_⟩
    · intro a ha
      rcases List.mem_cons.1 ha with rfl | ha
      · exact hw
      · exact h2 a ha
    · simp [sourceText, Piece.source]
  | .grp c' d :: r, _, _, e =>
    right
    rw [callSegs, mixed_chars] at e
    refine ⟨?_, _, rfl⟩
    cases rep <;> simp [Piece.source, Piece.result] at e <;> exact e.1.symm
  | .call v b d b' :: r, _, ha, _ => exact absurd hw (ha.2.1 v b d b' r rfl)

theorem call_chr {rep : Bool} {c : Char} {D : List Str} {l : List Piece} (hc : Cut true true (.chr c :: l)) (ha : Calls (.chr c :: l)) :
    ¬ callHead <+: c :: mixed D (callSegs rep l) := by
  rintro ⟨t, e⟩
  apply ha.1
  simp only [List.cons_append, List.nil_append, List.cons.injEq] at e
  obtain ⟨rfl, e⟩ := e
  rcases after_word (by decide) hc ha e.symm with ⟨r, rfl, e1⟩ | ⟨h, _⟩
  swap
  · exact absurd h (by decide)
  rcases after_word (by decide) hc.2 ha.2.2 e1 with ⟨r1, rfl, e2⟩ | ⟨h, _⟩
  swap
  · exact absurd h (by decide)
  rcases after_word (by decide) hc.2.2 ha.2.2.2.2 e2 with ⟨r2, rfl, e3⟩ | ⟨_, s, hs⟩
  · exact ⟨sourceText r2, rfl⟩
  · refine ⟨s, ?_⟩
    simp only [sourceText, List.flatMap_cons] at hs ⊢
    rw [hs]; rfl

theorem seen_chars {r : List Seg} (hr : Seen matchPowCall r) : ∀ (s : Str), (∀ D x, x ≠ [] → x <:+ s → ¬ callHead <+: x ++ mixed D r) →
    Seen matchPowCall (s.map Seg.chr ++ r)
  | [], _ => hr
  | c :: s, h => by
    rw [List.map_cons, List.cons_append, Seen]
    refine ⟨fun D => ?_, seen_chars hr s fun D x hx hs => h D x hx (hs.trans (List.suffix_cons c s))⟩
    rw [mixed_chars]
    exact matchPowCall_head (h D (c :: s) (by simp) (List.suffix_refl _))

theorem digit_not_head {z : Char} (h : Digit z) : z ∉ callHead := by
  intro hm
  simp only [List.mem_cons, List.not_mem_nil, or_false] at hm
  rcases hm with rfl | rfl | rfl | rfl <;> revert h <;> decide

theorem last_digit {d : Str} (hd : d ≠ []) (h : ∀ c ∈ d, Digit c) : ∃ y z, d = y ++ [z] ∧ Digit z :=
  ⟨d.dropLast, d.getLast hd, (List.dropLast_append_getLast hd).symm, h _ (List.getLast_mem hd)⟩

theorem pow_quiet (rep : Bool) {w b d : Str} (h2 : ∀ c ∈ w, Word c) (h3 : ∀ c ∈ b, true = true ∧ Blank c) (h4 : d ≠ []) (h5 : ∀ c ∈ d, Digit c) (M : Str)
    {x : Str} (hx : x ≠ []) (hs : x <:+ (if rep then (Piece.pow w b d).result else (Piece.pow w b d).source)) : ¬ callHead <+: x ++ M := by
  cases rep with
  | true =>
    refine quiet_match (y := '(' :: times w (numeral d)) (z := ')') rfl (by decide) ?_ M hx hs
    intro hi
    have := lp_mem (head_infix_cons (by decide) hi)
    rcases List.mem_append.1 this with hm | hm
    · rcases times_mem hm with hm | hm
      · exact absurd hm (by decide)
      · exact not_word_lp (h2 _ hm)
    · exact absurd hm (by decide)
  | false =>
    obtain ⟨y, z, rfl, hz⟩ := last_digit h4 h5
    refine quiet_match (y := w ++ '*' :: '*' :: (b ++ y)) (z := z) (by simp [Piece.source]) (digit_not_head hz) ?_ M hx hs
    intro hi
    have := lp_mem hi
    simp only [Bool.false_eq_true, if_false, Piece.source, List.mem_append, List.mem_cons] at this
    rcases this with hm | hm | hm | hm | hm
    · exact not_word_lp (h2 _ hm)
    · exact absurd hm (by decide)
    · exact absurd hm (by decide)
    · exact absurd (h3 _ hm).2 (by decide)
    · exact absurd (h5 '(' (by simpa using hm)) (by decide)

theorem grp_quiet (rep : Bool) {c d : Str} (h2 : ∀ a ∈ c, ¬ Paren a) (h4 : d ≠ []) (h5 : ∀ c ∈ d, Digit c) (M : Str)
    {x : Str} (hx : x ≠ []) (hs : x <:+ (if rep then (Piece.grp c d).result else (Piece.grp c d).source)) : ¬ callHead <+: x ++ M := by
  cases rep with
  | true =>
    refine quiet_match (y := '(' :: times ('(' :: (squeeze c ++ [')'])) (numeral d)) (z := ')') rfl (by decide) ?_ M hx hs
    refine call_result fun hi => h2 _ (List.mem_of_mem_filter (lp_mem hi)) (Or.inl rfl)
  | false =>
    obtain ⟨y, z, rfl, hz⟩ := last_digit h4 h5
    refine quiet_match (y := '(' :: (c ++ ')' :: '*' :: '*' :: y)) (z := z) (by simp [Piece.source]) (digit_not_head hz) ?_ M hx hs
    intro hi
    have := lp_mem (head_infix_cons (by decide) hi)
    simp only [List.mem_append, List.mem_cons] at this
    rcases this with hm | hm | hm | hm | hm
    · exact h2 _ hm (Or.inl rfl)
    · exact absurd hm (by decide)
    · exact absurd hm (by decide)
    · exact absurd hm (by decide)
    · exact absurd (h5 '(' (by simpa using hm)) (by decide)

theorem callSegs_seen (rep : Bool) : ∀ {l : List Piece}, Cut true true l → Calls l → Seen matchPowCall (callSegs rep l)
  | [], _, _ => trivial
  | .chr c :: r, hc, ha => ⟨fun _ => matchPowCall_head (call_chr hc ha), callSegs_seen rep hc.2 ha.2.2⟩
  | .pow w b d :: r, ⟨h1, h2, h3, h4, h5, h6, h7⟩, ha => by
    rw [callSegs]
    exact seen_chars (callSegs_seen rep h7 ha) _ fun D x hx hs => pow_quiet rep h2 h3 h4 h5 _ hx hs
  | .grp c d :: r, ⟨h0, h1, h2, h3, h4, h5, h6, h7⟩, ha => by
    rw [callSegs]
    exact seen_chars (callSegs_seen rep h7 ha) _ fun D x hx hs => grp_quiet rep h2 h4 h5 _ hx hs
  | .call v b d b' :: r, hc, ⟨h1, h2, h3, h4, h5, h6, h7, h8, h9, ha⟩ => by
    have ok : CallOk v b d b' := ⟨h1, h2, h3, h4, h5, h6, h7, h8, h9⟩
    rw [callSegs, Seen]
    refine ⟨by simp [Piece.source], fun D => call_whole ok _, fun D x hx hs => call_suffix ok _ hx hs, fun D x hx hs => ?_, callSegs_seen rep hc.2 ha⟩
    exact matchPowCall_head (quiet_match (y := '(' :: times ('(' :: (squeeze v ++ [')'])) (numeral d)) (z := ')') rfl (by decide) (call_result h5) _ hx hs)

theorem callSegs_call (rep : Bool) : ∀ {l : List Piece}, Calls l → ∀ q ∈ toks (callSegs rep l), ∃ v b d b', CallOk v b d b' ∧
    q = ((Piece.call v b d b').source, (Piece.call v b d b').result)
  | [], _, q, hq => by simp [callSegs, toks] at hq
  | .chr c :: r, ha, q, hq => callSegs_call rep ha.2.2 q hq
  | .pow w b d :: r, ha, q, hq => by
    rw [callSegs, toks_chars] at hq
    exact callSegs_call rep (l := r) ha q hq
  | .grp c d :: r, ha, q, hq => by
    rw [callSegs, toks_chars] at hq
    exact callSegs_call rep (l := r) ha q hq
  | .call v b d b' :: r, ⟨h1, h2, h3, h4, h5, h6, h7, h8, h9, ha⟩, q, hq => by
    rw [callSegs, toks] at hq
    rcases List.mem_cons.1 hq with rfl | hq
    · exact ⟨v, b, d, b', ⟨h1, h2, h3, h4, h5, h6, h7, h8, h9⟩, rfl⟩
    · exact callSegs_call rep ha q hq

theorem second_pass {l : List Piece} (hc : Cut true true l) (ha : Calls l) :
    pairs callNew (findAll matchPowCall (sourceText l)) = .ok (toks (callSegs true l)) ∧
    substAll (final (powSegs l)) (toks (callSegs true l)) = resultText l := by
  have hf := findAll_seen (callSegs_seen false hc ha)
  rw [callSegs_source, callSegs_toks] at hf
  have hnew : ∀ q ∈ toks (callSegs true l), callNew q.1 = .ok q.2 := by
    intro q hq
    obtain ⟨v, b, d, b', ok, rfl⟩ := callSegs_call true ha q hq
    exact callNew_call ok
  refine ⟨by rw [hf]; exact pairs_ok hnew, ?_⟩
  have := substAll_seen (callSegs_seen true hc ha) (toks (callSegs true l)) [] (by
    intro q hq
    obtain ⟨v, b, d, b', ok, rfl⟩ := callSegs_call true ha q hq
    refine ⟨by simp [Piece.source], ?_⟩
    rintro T ⟨M, rfl⟩
    exact ⟨_, call_whole ok M, le_refl _⟩) (by
    intro q hq q' e hm he
    have h1 := hnew q hq
    have h2 := hnew _ hm
    simp only [he] at h2
    rw [h1] at h2
    simpa using h2.symm) (by
    intro q e hm
    exact Or.inr (List.mem_map.2 ⟨(q, e), hm, rfl⟩)) (by
    rw [List.pairwise_map]
    refine List.pairwise_of_forall_mem_list fun a ha' b hb hi => ?_
    obtain ⟨v, b1, d, b', ok, rfl⟩ := callSegs_call true ha a ha'
    obtain ⟨v2, b2, d2, b2', ok2, rfl⟩ := callSegs_call true ha b hb
    dsimp only at hi ⊢
    rcases List.infix_cons_iff.1 hi with hp | hi
    · obtain ⟨M, hM⟩ := hp
      have h1 := call_whole ok M
      have h2 := call_whole ok2 []
      rw [List.append_nil] at h2
      rw [hM] at h1
      rw [show 'p' :: 'o' :: 'w' :: '(' :: (v2 ++ ',' :: (b2 ++ d2 ++ b2' ++ [')'])) = (Piece.call v2 b2 d2 b2').source from rfl, h2] at h1
      have hl : (Piece.call v2 b2 d2 b2').source.length = (Piece.call v b1 d b').source.length := by simpa using h1
      have hp : (Piece.call v b1 d b').source <+: (Piece.call v2 b2 d2 b2').source := ⟨M, hM⟩
      exact hp.eq_of_length hl.symm
    · exact absurd (List.IsInfix.trans ⟨[], v ++ ',' :: (b1 ++ d ++ b' ++ [')']), rfl⟩ hi) (call_tail ok2))
  rwa [callSegs_mid, callSegs_result] at this

/-- `pow2mul` on a text cut into pieces -/
theorem pow2mul_pieces {l : List Piece} (hc : Cut true true l) (ha : Calls l) : pow2mul (sourceText l) = .ok (resultText l) := by
  obtain ⟨h1, h2⟩ := first_pass hc
  obtain ⟨h3, h4⟩ := second_pass hc ha
  unfold pow2mul
  rw [h1]
  dsimp only
  rw [h3]
  dsimp only
  rw [h2, h4]

/-! ### `mprint_as_array` -/

theorem cut_arr_new : ∀ {l : List Piece}, Cut false false l → ∀ q ∈ toks (powSegs l), arrNew q.1 = .ok q.2
  | [], _, q, hq => by simp [powSegs, toks] at hq
  | .chr c :: r, h, q, hq => cut_arr_new h.2 q hq
  | .pow w b d :: r, ⟨h1, h2, h3, h4, h5, h6, h7⟩, q, hq => by
    rw [powSegs, toks] at hq
    rcases List.mem_cons.1 hq with rfl | hq
    · have : b = [] := List.eq_nil_iff_forall_not_mem.2 fun c hc => absurd (h3 c hc).1 (by simp)
      subst this
      exact arrNew_pow h2 h4 h5
    · exact cut_arr_new h7 q hq
  | .grp c d :: r, h, q, hq => absurd h.1 (by simp)
  | .call v b d b' :: r, h, q, hq => by
    rw [powSegs, toks_chars] at hq
    exact cut_arr_new h.2 q hq

/-- the power expansion of `mprint_as_array` on a text cut into pieces, if no power contains an earlier one -/
theorem arrValue_pieces {l : List Piece} (h : Cut false false l) (hp : ((toks (powSegs l)).map Prod.fst).Pairwise fun a b => a <:+: b → a = b) :
    arrValue (sourceText l) = .ok (final (powSegs l)) := by
  have hv := powSegs_valid h
  have hs := valid_seen hv
  have hnew := cut_arr_new h
  have hf := findAll_seen hs
  rw [powSegs_source, matchP_arr] at hf
  have := substAll_seen hs (toks (powSegs l)) [] (by
    intro q hq
    have ht := valid_tok hv q hq
    obtain ⟨x, y, hp, _⟩ := ht.head
    exact ⟨by simp [hp], tok_anchor ht⟩) (by
    intro q hq q' e hm he
    have h1 := hnew q hq
    have h2 := hnew _ hm
    simp only [he] at h2
    rw [h1] at h2
    simpa using h2.symm) (by
    intro q e hm
    exact Or.inr (List.mem_map.2 ⟨(q, e), hm, rfl⟩)) hp
  rw [powSegs_source] at this
  rw [arrValue, hf, pairs_ok hnew]
  dsimp only
  rw [this]

end SymPy
end Meshless
