import Verif.Lemmas.SymPyMul

/-! The second pass of `pow2mul`: calls of `pow`. -/

set_option autoImplicit false

namespace Meshless
namespace SymPy
open Spec

/-- the beginning of a call -/
abbrev callHead : Str := ['p', 'o', 'w', '(']

theorem matchPowCall_head {s : Str} (h : ¬ callHead <+: s) : matchPowCall s = none := by
  unfold matchPowCall
  split
  · rename_i s'
    exact absurd ⟨s', rfl⟩ h
  · rfl

theorem notComma_iff (c : Char) : (c != ',') = true ↔ c ≠ ',' := by simp
theorem notEnd_iff (c : Char) : (c != ',' && c != ')') = true ↔ (c ≠ ',' ∧ c ≠ ')') := by simp

theorem matchPowCall_open (s r t : Str) (h : s.dropWhile (· != ',') = ',' :: r) (h' : r.dropWhile (fun c => c != ',' && c != ')') = ')' :: t) :
    matchPowCall ('p' :: 'o' :: 'w' :: '(' :: s) = if s.takeWhile (· != ',') = [] then none else
      if r.takeWhile (fun c => c != ',' && c != ')') = [] then none else
        some (4 + (s.takeWhile (· != ',')).length + 1 + (r.takeWhile (fun c => c != ',' && c != ')')).length + 1) := by
  have e : matchPowCall ('p' :: 'o' :: 'w' :: '(' :: s) = if s.takeWhile (· != ',') = [] then none else
      match s.dropWhile (· != ',') with
      | _ :: r => if r.takeWhile (fun c => c != ',' && c != ')') = [] then none else
          match r.dropWhile (fun c => c != ',' && c != ')') with
          | ')' :: _ => some (4 + (s.takeWhile (· != ',')).length + 1 + (r.takeWhile (fun c => c != ',' && c != ')')).length + 1)
          | _ => none
      | [] => none := rfl
  rw [e, h]
  dsimp only
  rw [h']
  rfl

/-- the parts of a call of `pow` are what they look like -/
structure CallOk (v b d b' : Str) : Prop where
  ne : v ≠ []
  comma : ∀ c ∈ v, c ≠ ','
  blank : ∀ c ∈ v, Blank c → c = ' '
  pow : ¬ ['p', 'o', 'w'] <:+: v
  head : ¬ callHead <:+: squeeze v
  blanks : ∀ c ∈ b, Blank c
  dne : d ≠ []
  digits : ∀ c ∈ d, Digit c
  blanks' : ∀ c ∈ b', Blank c

variable {v b d b' : Str}

theorem CallOk.expo (h : CallOk v b d b') : ∀ c ∈ b ++ d ++ b', c ≠ ',' ∧ c ≠ ')' := by
  have hb : ∀ c, Blank c → c ≠ ',' ∧ c ≠ ')' := by
    intro c hc
    constructor <;> (rintro rfl; revert hc; decide)
  intro c hc
  simp only [List.mem_append] at hc
  rcases hc with (hc | hc) | hc
  · exact hb c (h.blanks c hc)
  · have := digit_word (h.digits c hc)
    constructor
    · rintro rfl; exact not_word_comma this
    · rintro rfl; exact not_word_rp this
  · exact hb c (h.blanks' c hc)

theorem call_whole (h : CallOk v b d b') (M : Str) :
    matchPowCall ((Piece.call v b d b').source ++ M) = some (Piece.call v b d b').source.length := by
  have e0 : (Piece.call v b d b').source ++ M = 'p' :: 'o' :: 'w' :: '(' :: (v ++ ',' :: (b ++ d ++ b' ++ ')' :: M)) := by
    simp [Piece.source]
  obtain ⟨e1, e2⟩ := takeWhile_run notComma_iff (a := v) (t := ',' :: (b ++ d ++ b' ++ ')' :: M)) h.comma (stops_cons (by simp) _)
  obtain ⟨e3, e4⟩ := takeWhile_run notEnd_iff (a := b ++ d ++ b') (t := ')' :: M) h.expo (stops_cons (by simp) _)
  have hne : b ++ d ++ b' ≠ [] := by
    intro e
    simp only [List.append_eq_nil_iff] at e
    exact h.dne e.1.2
  rw [e0, matchPowCall_open _ _ _ e2 e4, e1, e3, if_neg h.ne, if_neg hne]
  simp only [Piece.source, List.length_cons, List.length_append, List.length_nil]
  congr 1; omega

/-- a text that holds no call head and does not end with a character of one -/
theorem quiet_call {x M : Str} {z : Char} {y : Str} (hx : x = y ++ [z]) (hz : z ∉ callHead) (h : ¬ callHead <:+: x) : ¬ callHead <+: x ++ M := by
  intro hp
  rcases Nat.le_total callHead.length x.length with hl | hl
  · exact h (List.prefix_of_prefix_length_le hp (List.prefix_append _ _) hl).isInfix
  · have := List.prefix_of_prefix_length_le (List.prefix_append x M) hp hl
    exact hz (this.subset (by rw [hx]; simp))

theorem head_infix_cons {c : Char} {s : Str} (hc : c ≠ 'p') (h : callHead <:+: c :: s) : callHead <:+: s := by
  rcases List.infix_cons_iff.1 h with ⟨t, ht⟩ | h
  · simp only [List.cons_append, List.cons.injEq] at ht
    exact absurd ht.1.symm hc
  · exact h

theorem lp_mem {s : Str} (h : callHead <:+: s) : '(' ∈ s := infix_mem h (by simp)

theorem call_tail (h : CallOk v b d b') : ¬ callHead <:+: 'o' :: 'w' :: '(' :: (v ++ ',' :: (b ++ d ++ b' ++ [')'])) := by
  intro hi
  have hi := head_infix_cons (by decide) (head_infix_cons (by decide) (head_infix_cons (by decide) hi))
  rcases sep_infix (by decide) hi with hi | hi
  · exact h.pow (List.IsInfix.trans ⟨[], ['('], rfl⟩ hi)
  · rcases List.mem_append.1 (lp_mem hi) with hm | hm
    · simp only [List.mem_append] at hm
      rcases hm with (hm | hm) | hm
      · exact absurd (h.blanks _ hm) (by decide)
      · exact absurd (h.digits _ hm) (by decide)
      · exact absurd (h.blanks' _ hm) (by decide)
    · simp at hm

theorem call_last (v b d b' : Str) : ∃ y, (Piece.call v b d b').source = y ++ [')'] :=
  ⟨'p' :: 'o' :: 'w' :: '(' :: (v ++ ',' :: (b ++ d ++ b')), by simp [Piece.source]⟩

theorem suffix_last {x y s : Str} {z : Char} (hx : x ≠ []) (hs : x <:+ s) (e : s = y ++ [z]) : ∃ y', x = y' ++ [z] := by
  subst e
  rcases suffix_append_cases hs with h | ⟨a, _, _, h⟩
  · rcases List.suffix_cons_iff.1 h with h | h
    · exact ⟨[], h⟩
    · exact absurd (List.suffix_nil.1 h) hx
  · exact ⟨a, h⟩

theorem call_suffix (h : CallOk v b d b') (M : Str) {x : Str} (hx : x ≠ []) (hs : x <:+ (Piece.call v b d b').source) :
    matchPowCall (x ++ M) = none ∨ matchPowCall (x ++ M) = some x.length := by
  rcases List.suffix_cons_iff.1 hs with rfl | hs'
  · exact Or.inr (call_whole h M)
  · left
    obtain ⟨y, hy⟩ := call_last v b d b'
    obtain ⟨y', hy'⟩ := suffix_last hx hs hy
    exact matchPowCall_head (quiet_call hy' (by decide) fun hi => call_tail h (hi.trans hs'.isInfix))

theorem call_result (h : ¬ callHead <:+: squeeze v) : ¬ callHead <:+: '(' :: (times ('(' :: (squeeze v ++ [')'])) (numeral d) ++ [')']) := by
  intro hi
  have hi := head_infix_cons (by decide) hi
  rcases sep_infix (by decide) hi with hi | hi
  · refine times_infix (by decide) (by simp) (fun hi => ?_) _ hi
    have hi := head_infix_cons (by decide) hi
    rcases sep_infix (by decide) hi with hi | hi
    · exact h hi
    · simp at hi
  · simp at hi

/-- a text with no call head in it, ending with a digit or a right parenthesis, is not seen by the pattern for calls -/
theorem quiet_match {s : Str} {z : Char} {y : Str} (e : s = y ++ [z]) (hz : z ∉ callHead) (h : ¬ callHead <:+: s) (M : Str) {x : Str} (hx : x ≠ [])
    (hs : x <:+ s) : ¬ callHead <+: x ++ M := by
  obtain ⟨y', hy'⟩ := suffix_last hx hs e
  exact quiet_call hy' hz fun hi => h (hi.trans hs.isInfix)

/-! ### the replacement of a call -/

theorem splitStr_pow {q : Str} (h : ¬ ['p', 'o', 'w'] <:+: q) : splitStr ['p', 'o', 'w'] (['p', 'o', 'w'] ++ q) = [[], q] := by
  have := splitStr_one ['p', 'o', 'w'] (by simp) q [] (by intro x hx hs; exact absurd (List.suffix_nil.1 hs) hx)
  rw [List.nil_append] at this
  rw [this, splitStr_none]
  intro x _ hs hp
  exact h (hp.isInfix.trans hs.isInfix)

theorem splitStr_comma {a b : Str} (ha : ',' ∉ a) (hb : ',' ∉ b) : splitStr [','] (a ++ ',' :: b) = [a, b] := by
  have := splitStr_one [','] (by simp) b a (by
    intro x hx hs hp
    obtain ⟨c, t, rfl⟩ := List.exists_cons_of_ne_nil hx
    obtain ⟨u, hu⟩ := hp
    simp only [List.cons_append, List.nil_append, List.cons.injEq] at hu
    exact ha (hs.subset (by rw [hu.1]; simp)))
  rw [show a ++ ',' :: b = a ++ ([','] ++ b) from rfl, this, splitStr_none]
  intro x _ hs hp
  exact hb (hs.subset (hp.subset (by simp)))

theorem rstrip_split (s : Str) : ∃ t, s = (s.reverse.dropWhile isSpace).reverse ++ t ∧ ∀ c ∈ t, Blank c := by
  refine ⟨(s.reverse.takeWhile isSpace).reverse, ?_, fun c hc => takeWhile_all isSpace_iff _ c (List.mem_reverse.1 hc)⟩
  rw [← List.reverse_append, List.takeWhile_append_dropWhile, List.reverse_reverse]

theorem strip_arg (h : ∀ c ∈ v, Blank c → c = ' ') : ((strip ('(' :: v)).drop 1).filter (· != ' ') = squeeze v := by
  have e0 : ('(' :: v).dropWhile isSpace = '(' :: v := by
    rw [List.dropWhile_cons, if_neg (by decide)]
  have hsq : ∀ s : Str, s.filter (· != ' ') = squeeze s := by
    intro s; rw [squeeze]; congr 1; funext x; by_cases hx : x = ' ' <;> simp [hx]
  obtain ⟨t, ht, hb⟩ := rstrip_split ('(' :: v)
  rw [strip, e0]
  generalize (List.dropWhile isSpace ('(' :: v).reverse).reverse = r at ht
  cases r with
  | nil =>
    rw [List.nil_append] at ht
    exact absurd (hb '(' (by rw [← ht]; simp)) (by decide)
  | cons x r =>
    simp only [List.cons_append, List.cons.injEq] at ht
    rw [List.drop_succ_cons, List.drop_zero, hsq, ht.2, squeeze, squeeze, List.filter_append]
    have : t.filter (fun c => decide (c ≠ ' ')) = [] := by
      rw [List.filter_eq_nil_iff]
      intro c hc
      have := h c (by rw [ht.2]; simp [hc]) (hb c hc)
      simp [this]
    rw [this, List.append_nil]

theorem call_noPow (h : CallOk v b d b') : ¬ ['p', 'o', 'w'] <:+: '(' :: (v ++ ',' :: (b ++ d ++ b' ++ [')'])) := by
  intro hi
  rcases List.infix_cons_iff.1 hi with ⟨t, ht⟩ | hi
  · simp at ht
  · rcases sep_infix (by decide) hi with hi | hi
    · exact h.pow hi
    · have hp := infix_mem hi (c := 'p') (by simp)
      simp only [List.mem_append, List.mem_singleton] at hp
      rcases hp with ((hp | hp) | hp) | hp
      · exact absurd (h.blanks _ hp) (by decide)
      · exact absurd (h.digits _ hp) (by decide)
      · exact absurd (h.blanks' _ hp) (by decide)
      · exact absurd hp (by decide)

theorem callNew_call (h : CallOk v b d b') : callNew (Piece.call v b d b').source = .ok (Piece.call v b d b').result := by
  have e0 : (Piece.call v b d b').source = ['p', 'o', 'w'] ++ ('(' :: (v ++ ',' :: (b ++ d ++ b' ++ [')']))) := rfl
  have h1 := splitStr_pow (call_noPow h)
  have h2 : splitStr [','] ('(' :: (v ++ ',' :: (b ++ d ++ b' ++ [')']))) = ['(' :: v, b ++ d ++ b' ++ [')']] := by
    refine splitStr_comma (a := '(' :: v) ?_ ?_
    · intro hm
      rcases List.mem_cons.1 hm with hm | hm
      · exact absurd hm (by decide)
      · exact h.comma _ hm rfl
    · intro hm
      rcases List.mem_append.1 hm with hm | hm
      · exact (h.expo _ hm).1 rfl
      · simp at hm
  have h3 : strip (b ++ d ++ b' ++ [')']) = d ++ b' ++ [')'] := by
    have hs : Stops Blank (d ++ b' ++ [')']) := by
      obtain ⟨x, t, hx⟩ := List.exists_cons_of_ne_nil h.dne
      rw [hx]
      exact stops_cons (fun hb => not_digit_blank hb (h.digits x (by rw [hx]; simp))) _
    have := strip_both (a := b) (s := d ++ b' ++ [')']) (b := []) h.blanks (by simp) hs (by simp) (by
      rw [List.reverse_append]
      exact stops_cons (by decide) _)
    rw [List.append_nil] at this
    rw [← this]; simp
  have h4 : pyInt (d ++ b') = some (numeral d : ℤ) := by
    have := pyInt_value (a := []) (by simp) h.blanks' h.dne h.digits
    rwa [List.nil_append] at this
  rw [callNew, e0, show "pow".toList = ['p', 'o', 'w'] from rfl, h1]
  dsimp only
  rw [show ",".toList = [','] from rfl, h2]
  dsimp only
  rw [h3, List.dropLast_concat, h4]
  dsimp only
  rw [strip_arg h.blank, product_times]
  rfl

end SymPy
end Meshless
