import Verif.Props.SymPy
import Verif.Spec.SymPyInt

/-! C162: the exponents of `pow(x, n)` in `pow2mul`. -/

set_option autoImplicit false

namespace Meshless
open Spec SymPy

theorem digits_ends {t : Str} {k : ℕ} (h : Digits t k) : t ≠ [] ∧ (∃ c r, t = c :: r ∧ Digit c) ∧ ∃ c r, t = r ++ [c] ∧ Digit c := by
  induction h with
  | one h => exact ⟨by simp, ⟨_, _, rfl, h⟩, _, [], rfl, h⟩
  | more h hc ih =>
    obtain ⟨h1, ⟨c, r, rfl, h2⟩, _⟩ := ih
    exact ⟨by simp, ⟨c, _, rfl, h2⟩, _, _, rfl, hc⟩
  | @under s n x h hc ih =>
    obtain ⟨h1, ⟨c, r, rfl, h2⟩, _⟩ := ih
    exact ⟨by simp, ⟨c, _, rfl, h2⟩, x, (c :: r) ++ ['_'], by simp, hc⟩

theorem pyNat_digits {s : Str} {k : ℕ} (h : Digits s k) : ∀ t, pyNat (s ++ t) = pyDigits k t := by
  induction h with
  | @one c h =>
    intro t
    rw [List.singleton_append, pyNat, if_pos (show isDigit c = true from h)]
  | @more s n c h hc ih =>
    intro t
    have hn : c ≠ '_' := by rintro rfl; exact absurd hc (by decide)
    rw [List.append_assoc, ih, List.singleton_append, pyDigits, if_pos (show isDigit c = true from hc)]
    exact fun _ _ e => fun _ => hn e
  | @under s n c h hc ih =>
    intro t
    rw [List.append_assoc, ih, List.cons_append, List.singleton_append, pyDigits, if_pos (show isDigit c = true from hc)]

theorem digits_pyDigits {n : ℕ} : ∀ (l : ℕ) (t : Str) (a : ℕ) (s : Str), t.length ≤ l → Digits s a → pyDigits a t = some n → Digits (s ++ t) n
  | _, [], a, s, _, hs, h => by
    rw [pyDigits] at h
    obtain rfl := Option.some.inj h
    rwa [List.append_nil]
  | 0, c :: t, _, _, hl, _, _ => by simp at hl
  | l + 1, c :: t, a, s, hl, hs, h => by
    by_cases hc : isDigit c = true
    · have hn : c ≠ '_' := by rintro rfl; exact absurd hc (by decide)
      rw [pyDigits, if_pos hc] at h
      · have := digits_pyDigits l t _ _ (by simpa using hl) (Digits.more hs hc) h
        rwa [List.append_assoc] at this
      · exact fun _ _ e => fun _ => hn e
    · by_cases hu : c = '_'
      · subst hu
        cases t with
        | nil => rw [pyDigits, if_neg hc] at h; · simp at h
                 · simp
        | cons x t =>
          rw [pyDigits] at h
          split at h
          · rename_i hx
            have := digits_pyDigits l t _ _ (by simp at hl; omega) (Digits.under hs hx) h
            rwa [List.append_assoc] at this
          · simp at h
      · rw [pyDigits, if_neg hc] at h
        · simp at h
        · exact fun _ _ e => fun _ => hu e

theorem pyNat_iff {s : Str} {n : ℕ} : pyNat s = some n ↔ Digits s n := by
  constructor
  · intro h
    cases s with
    | nil => simp [pyNat] at h
    | cons c t =>
      rw [pyNat] at h
      split at h
      · rename_i hc
        exact digits_pyDigits t.length t _ [c] (le_refl _) (Digits.one hc) h
      · simp at h
  · intro h
    have := pyNat_digits h []
    rw [List.append_nil, pyDigits] at this
    exact this

theorem strip_split (s : Str) : ∃ b b', (∀ c ∈ b, Blank c) ∧ (∀ c ∈ b', Blank c) ∧ s = b ++ strip s ++ b' := by
  obtain ⟨t, ht, hb⟩ := rstrip_split (s.dropWhile isSpace)
  refine ⟨s.takeWhile isSpace, t, takeWhile_all isSpace_iff s, hb, ?_⟩
  rw [List.append_assoc]
  show s = s.takeWhile isSpace ++ (((s.dropWhile isSpace).reverse.dropWhile isSpace).reverse ++ t)
  rw [← ht, List.takeWhile_append_dropWhile]

/-- `int(s)` succeeds for whole numbers only and returns their value -/
theorem pyInt_iff {s : Str} {n : ℤ} : pyInt s = some n ↔ IntText s n := by
  constructor
  · intro h
    obtain ⟨b, b', hb, hb', e⟩ := strip_split s
    rw [pyInt] at h
    split at h
    · rename_i t ht
      cases hk : pyNat t with
      | none => rw [hk] at h; exact absurd h (by simp)
      | some k =>
        rw [hk] at h
        obtain rfl := Option.some.inj h
        exact ⟨b, t, b', k, hb, hb', pyNat_iff.1 hk, .inr (.inr ⟨by rw [ht] at e; exact e, rfl⟩)⟩
    · rename_i t ht
      cases hk : pyNat t with
      | none => rw [hk] at h; exact absurd h (by simp)
      | some k =>
        rw [hk] at h
        obtain rfl := Option.some.inj h
        exact ⟨b, t, b', k, hb, hb', pyNat_iff.1 hk, .inr (.inl ⟨by rw [ht] at e; exact e, rfl⟩)⟩
    · cases hk : pyNat (strip s) with
      | none => rw [hk] at h; exact absurd h (by simp)
      | some k =>
        rw [hk] at h
        obtain rfl := Option.some.inj h
        exact ⟨b, _, b', k, hb, hb', pyNat_iff.1 hk, .inl ⟨e, rfl⟩⟩
  · rintro ⟨b, t, b', k, hb, hb', ht, h⟩
    have hk := pyNat_iff.2 ht
    obtain ⟨h0, ⟨c, r, e1, hc⟩, c', r', e2, hc'⟩ := digits_ends ht
    have nb : ∀ {x}, Digit x → ¬ Blank x := fun hx hb => not_digit_blank hb hx
    have last : ∀ u : Str, Stops Blank (u ++ t).reverse := fun u => by
      rw [e2, ← List.append_assoc, List.reverse_append]
      exact stops_cons (nb hc') _
    rcases h with ⟨rfl, rfl⟩ | ⟨rfl, rfl⟩ | ⟨rfl, rfl⟩
    · rw [pyInt, strip_both hb hb' (by rw [e1]; exact stops_cons (nb hc) _) h0 (last [])]
      split
      · rename_i t' ; rw [List.cons.injEq] at e1; rw [← e1.1] at hc; exact absurd hc (by decide)
      · rename_i t' ; rw [List.cons.injEq] at e1; rw [← e1.1] at hc; exact absurd hc (by decide)
      · rw [hk]; rfl
    · rw [pyInt, strip_both (s := '+' :: t) hb hb' (stops_cons (by decide) _) (by simp) (last ['+'])]
      simp only [hk]; rfl
    · rw [pyInt, strip_both (s := '-' :: t) hb hb' (stops_cons (by decide) _) (by simp) (last ['-'])]
      simp only [hk]; rfl

theorem dropWhile_twice (e : Str) : (e.dropWhile isSpace).dropWhile isSpace = e.dropWhile isSpace := by
  induction e with
  | nil => rfl
  | cons c t ih =>
    by_cases h : isSpace c = true
    · rw [List.dropWhile_cons, if_pos h]; exact ih
    · rw [List.dropWhile_cons, if_neg h, List.dropWhile_cons, if_neg h]

/-- the text that `pow2mul` hands to `int` -/
theorem expo_int (e : Str) : pyInt ((strip (e ++ [')'])).dropLast) = pyInt e := by
  have h1 : (e ++ [')']).dropWhile isSpace = e.dropWhile isSpace ++ [')'] := by
    induction e with
    | nil => rfl
    | cons c t ih =>
      by_cases h : isSpace c = true
      · rw [List.cons_append, List.dropWhile_cons, if_pos h, List.dropWhile_cons, if_pos h]; exact ih
      · rw [List.cons_append, List.dropWhile_cons, if_neg h, List.dropWhile_cons, if_neg h]; rfl
  have h2 : strip (e ++ [')']) = e.dropWhile isSpace ++ [')'] := by
    rw [strip, h1, List.reverse_append, List.reverse_singleton, List.singleton_append, List.dropWhile_cons, if_neg (by decide), List.reverse_cons, List.reverse_reverse]
  have h3 : strip (e.dropWhile isSpace) = strip e := by rw [strip, dropWhile_twice, strip]
  rw [h2, List.dropLast_concat, pyInt, h3, pyInt]

section
variable {v e : Str} (h : IsCall v e)
include h

theorem callText_match (M : Str) : matchPowCall (callText v e ++ M) = some (callText v e).length := by
  have e0 : callText v e ++ M = 'p' :: 'o' :: 'w' :: '(' :: (v ++ ',' :: (e ++ ')' :: M)) := by simp [callText]
  obtain ⟨e1, e2⟩ := takeWhile_run notComma_iff (a := v) (t := ',' :: (e ++ ')' :: M)) (fun c hc hx => h.comma (hx ▸ hc)) (stops_cons (by simp) _)
  obtain ⟨e3, e4⟩ := takeWhile_run notEnd_iff (a := e) (t := ')' :: M) (fun c hc => ⟨fun hx => h.comma' (hx ▸ hc), fun hx => h.close (hx ▸ hc)⟩) (stops_cons (by simp) _)
  rw [e0, matchPowCall_open _ _ _ e2 e4, e1, e3, if_neg h.arg, if_neg h.expo]
  simp only [callText, List.length_cons, List.length_append, List.length_nil]
  congr 1; omega

theorem callText_new : callNew (callText v e) = match pyInt e with
    | some n => .ok (product ('(' :: (((strip ('(' :: v)).drop 1).filter (· != ' ') ++ [')'])) n)
    | none => .error .valueError := by
  have e0 : callText v e = ['p', 'o', 'w'] ++ ('(' :: (v ++ ',' :: (e ++ [')']))) := rfl
  have h1 := splitStr_pow (q := '(' :: (v ++ ',' :: (e ++ [')']))) (by
    intro hi
    rcases List.infix_cons_iff.1 hi with ⟨t, ht⟩ | hi
    · simp at ht
    · rcases sep_infix (by decide) hi with hi | hi
      · exact h.pow hi
      · rcases sep_infix (by decide) hi with hi | hi
        · exact h.pow' hi
        · have := hi.length_le; simp at this)
  have h2 : splitStr [','] ('(' :: (v ++ ',' :: (e ++ [')']))) = ['(' :: v, e ++ [')']] := by
    refine splitStr_comma (a := '(' :: v) ?_ ?_
    · intro hm
      rcases List.mem_cons.1 hm with hm | hm
      · exact absurd hm (by decide)
      · exact h.comma hm
    · intro hm
      rcases List.mem_append.1 hm with hm | hm
      · exact h.comma' hm
      · simp at hm
  rw [callNew, e0, show "pow".toList = ['p', 'o', 'w'] from rfl, h1]
  dsimp only
  rw [show ",".toList = [','] from rfl, h2]
  dsimp only
  rw [expo_int]
  rfl
end

theorem no_powers {s : Str} (h : ¬ ['*', '*'] <:+: s) : findAll matchPow s = [] := by
  have := findAll_skip matchPow s [] (by
    intro x _ hs
    rw [List.append_nil, ← matchP_pow]
    by_contra hn
    exact h ((begins_stars (beginsPower_of_matchP hn)).trans hs.isInfix))
  rwa [List.append_nil, findAll] at this

/-- nothing before the first call looks like one -/
theorem before_call {a r x : Str} (h : ¬ callHead <:+: a ++ ['p', 'o', 'w']) (hx : x ≠ []) (hs : x <:+ a) : ¬ callHead <+: x ++ 'p' :: 'o' :: 'w' :: r := by
  intro hp
  have e : x ++ 'p' :: 'o' :: 'w' :: r = (x ++ ['p', 'o', 'w']) ++ r := by simp
  rw [e] at hp
  have hl : 0 < x.length := List.length_pos_iff.2 hx
  have := List.prefix_of_prefix_length_le hp (List.prefix_append _ _) (by simp; omega)
  obtain ⟨u, rfl⟩ := hs
  exact h (this.isInfix.trans ⟨u, [], by simp⟩)

section
variable {a v e t : Str} (h : IsCall v e) (hs : ¬ "**".toList <:+: a ++ callText v e ++ t) (ha : ¬ "pow(".toList <:+: a ++ "pow".toList)
include h hs ha

/-- C162: a text without `**` whose first call of `pow` has no whole number as its exponent raises ValueError, whatever follows -/
theorem C162_raises (hn : ∀ n, ¬ IntText e n) : pow2mul (a ++ callText v e ++ t) = .error .valueError := by
  have hi : pyInt e = none := by
    cases hp : pyInt e with
    | none => rfl
    | some n => exact absurd (pyInt_iff.1 hp) (hn n)
  have hf : findAll matchPowCall (a ++ callText v e ++ t) = callText v e :: findAll matchPowCall t := by
    rw [List.append_assoc, findAll_skip matchPowCall a (callText v e ++ t) fun x hx hs' => matchPowCall_head (before_call ha hx hs'), findAll_hit _ _ _ (by simp [callText]) (callText_match h t)]
  rw [pow2mul, no_powers hs, hf]
  simp only [pairs, callText_new h, hi]

/-- C162: with a whole number `n` as its exponent the only call of `pow` becomes the product of `n` copies of its argument in parentheses, nothing else changes;
there are no copies for `n ≤ 0` -/
theorem C162_value (ht : ¬ "pow(".toList <:+: t) (hb : ∀ c ∈ v, Blank c → c = ' ') {n : ℤ} (hn : IntText e n) :
    pow2mul (a ++ callText v e ++ t) = .ok (a ++ ('(' :: (times ('(' :: (squeeze v ++ [')'])) n.toNat ++ [')'])) ++ t) := by
  have hi := pyInt_iff.2 hn
  have hc : callText v e ≠ [] := by simp [callText]
  have head : callHead <+: callText v e := ⟨v ++ ',' :: (e ++ [')']), rfl⟩
  have tail : ∀ x, x ≠ [] → x <:+ t → ¬ callHead <+: x ++ [] := fun x _ hs' hp => by
    rw [List.append_nil] at hp
    exact ht (hp.isInfix.trans hs'.isInfix)
  have hft : findAll matchPowCall t = [] := by
    have := findAll_skip matchPowCall t [] fun x hx hs' => matchPowCall_head (tail x hx hs')
    rwa [List.append_nil, findAll] at this
  have hf : findAll matchPowCall (a ++ callText v e ++ t) = [callText v e] := by
    rw [List.append_assoc, findAll_skip matchPowCall a (callText v e ++ t) fun x hx hs' => matchPowCall_head (before_call ha hx hs'), findAll_hit _ _ _ hc (callText_match h t), hft]
  have hr : ∀ new, replaceAll (callText v e) new (a ++ callText v e ++ t) = a ++ new ++ t := fun new => by
    have h3 : replaceAll (callText v e) new t = t := by
      have := replaceAll_skip (callText v e) new t [] fun x hx hs' hp => tail x hx hs' (head.trans hp)
      rwa [List.append_nil, replaceAll, List.append_nil] at this
    rw [List.append_assoc, replaceAll_skip _ _ a (callText v e ++ t) fun x hx hs' hp => before_call ha hx hs' (head.trans hp), replaceAll_hit _ _ _ hc, h3, List.append_assoc]
  have hp : product ('(' :: (squeeze v ++ [')'])) n = '(' :: (times ('(' :: (squeeze v ++ [')'])) n.toNat ++ [')']) := by
    rw [← product_times]
    simp only [product, Int.toNat_natCast]
  rw [pow2mul, no_powers hs, hf]
  simp only [pairs, callText_new h, hi, strip_arg hb, hp]
  rw [show longestFirst [] = [] from by simp [longestFirst]]
  simp only [substAll, List.foldl_nil, List.foldl_cons, hr]

/-- C162: a call of `pow` with a negative exponent, or with the exponent zero, becomes an empty pair of parentheses -/
theorem C162_lost (ht : ¬ "pow(".toList <:+: t) (hb : ∀ c ∈ v, Blank c → c = ' ') {n : ℤ} (hn : IntText e n) (h0 : n ≤ 0) :
    pow2mul (a ++ callText v e ++ t) = .ok (a ++ "()".toList ++ t) := by
  rw [C162_value h hs ha ht hb hn, Int.toNat_of_nonpos h0]
  rfl
end

/-- C162: `2*pow(x + y, -2)/3` becomes `2*()/3` -/
example : pow2mul "2*pow(x + y, -2)/3".toList = .ok "2*()/3".toList :=
  C162_lost (a := "2*".toList) (v := "x + y".toList) (e := " -2".toList) (t := "/3".toList) ⟨by decide, by decide, by decide, by decide, by decide, by decide, by decide⟩
    (by decide) (by decide) (by decide) (by decide) (n := -2)
    ⟨" ".toList, "2".toList, [], 2, by decide, by decide, Digits.one (c := '2') (by decide), .inr (.inr ⟨rfl, rfl⟩)⟩ (by decide)

/-- C162: `2*pow(x + y, +1_0 )/3` has ten factors -/
example : pow2mul "2*pow(x + y, +1_0 )/3".toList = .ok "2*((x+y)*(x+y)*(x+y)*(x+y)*(x+y)*(x+y)*(x+y)*(x+y)*(x+y)*(x+y))/3".toList :=
  C162_value (a := "2*".toList) (v := "x + y".toList) (e := " +1_0 ".toList) (t := "/3".toList) ⟨by decide, by decide, by decide, by decide, by decide, by decide, by decide⟩
    (by decide) (by decide) (by decide) (by decide) (n := 10)
    ⟨" ".toList, "1_0".toList, " ".toList, 10, by decide, by decide, Digits.under (c := '0') (Digits.one (c := '1') (by decide)) (by decide), .inr (.inl ⟨rfl, rfl⟩)⟩

/-- C162: exponents that are not whole numbers: a name or a fraction -/
theorem exInt_none {e : Str} (h : pyInt e = none) (n : ℤ) : ¬ IntText e n := fun hn => by rw [pyInt_iff.2 hn] at h; simp at h

/-- C162: `a + pow(x, 0.5) + pow(y, 2)` and `pow(x, n)` raise ValueError -/
example : pow2mul "a + pow(x, 0.5) + pow(y, 2)".toList = .error .valueError ∧ pow2mul "pow(x, n)".toList = .error .valueError :=
  ⟨C162_raises (a := "a + ".toList) (v := "x".toList) (e := " 0.5".toList) (t := " + pow(y, 2)".toList) ⟨by decide, by decide, by decide, by decide, by decide, by decide, by decide⟩
    (by decide) (by decide) (exInt_none (by decide)),
   C162_raises (a := []) (v := "x".toList) (e := " n".toList) (t := []) ⟨by decide, by decide, by decide, by decide, by decide, by decide, by decide⟩
    (by decide) (by decide) (exInt_none (by decide))⟩

end Meshless
