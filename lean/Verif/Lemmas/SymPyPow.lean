import Verif.Lemmas.SymPyScan
import Verif.Spec.SymPy

/-! The power patterns of sympytools: what they match, and that they see exactly the powers of a text cut into pieces. -/

set_option autoImplicit false

namespace Meshless
namespace SymPy
open Spec

/-! ### character classes -/

theorem isWord_iff (c : Char) : isWord c = true ↔ Word c := by simp [isWord]
theorem isDigit_iff (c : Char) : isDigit c = true ↔ Digit c := Iff.rfl
theorem isSpace_iff (c : Char) : isSpace c = true ↔ Blank c := by simp [isSpace]
theorem notParen_iff (c : Char) : notParen c = true ↔ ¬ Paren c := by simp [notParen]

theorem digit_word {c : Char} (h : Digit c) : Word c := Or.inl (by simp [Char.isAlphanum, h])

theorem digit_range {c : Char} (h : Digit c) : 48 ≤ c.toNat ∧ c.toNat ≤ 57 := by
  unfold Digit Char.isDigit at h
  simp only [Bool.and_eq_true, decide_eq_true_eq] at h
  exact ⟨h.1, h.2⟩

theorem word_range {c : Char} (h : Word c) : 48 ≤ c.toNat := by
  rcases h with h | h
  · unfold Char.isAlphanum Char.isAlpha Char.isUpper Char.isLower at h
    simp only [Bool.or_eq_true, Bool.and_eq_true, decide_eq_true_eq] at h
    rcases h with (h | h) | h
    · exact le_trans (by decide) (show (65 : ℕ) ≤ c.toNat from h.1)
    · exact le_trans (by decide) (show (97 : ℕ) ≤ c.toNat from h.1)
    · exact (digit_range h).1
  · subst h; decide

theorem not_word_star : ¬ Word '*' := by decide
theorem not_word_lp : ¬ Word '(' := by decide
theorem not_word_rp : ¬ Word ')' := by decide
theorem not_word_comma : ¬ Word ',' := by decide
theorem not_word_blank {c : Char} (h : Blank c) : ¬ Word c := fun hw => by
  have := word_range hw
  unfold Blank at h
  omega
theorem not_digit_blank {c : Char} (h : Blank c) : ¬ Digit c := fun hd => not_word_blank h (digit_word hd)
theorem not_blank_digit {c : Char} (h : Digit c) : ¬ Blank c := fun hd => not_word_blank hd (digit_word h)
theorem word_not_paren {c : Char} (h : Word c) : ¬ Paren c := by
  rintro (rfl | rfl)
  · exact not_word_lp h
  · exact not_word_rp h
theorem blank_not_paren {c : Char} (h : Blank c) : ¬ Paren c := by
  rintro (rfl | rfl) <;> revert h <;> decide
theorem star_not_paren : ¬ Paren '*' := by decide
theorem star_not_blank : ¬ Blank '*' := by decide

/-! ### runs -/

/-- the text does not begin with a character of the class -/
def Stops (P : Char → Prop) (t : Str) : Prop := ∀ c r, t = c :: r → ¬ P c

theorem stops_cons {P : Char → Prop} {c : Char} (h : ¬ P c) (t : Str) : Stops P (c :: t) := by
  intro c' r e
  simp only [List.cons.injEq] at e
  rw [← e.1]; exact h

theorem stops_nil (P : Char → Prop) : Stops P [] := by intro c r e; simp at e

theorem takeWhile_run {P : Char → Prop} {f : Char → Bool} (hf : ∀ c, f c = true ↔ P c) : ∀ {a t : Str}, (∀ c ∈ a, P c) → Stops P t →
    (a ++ t).takeWhile f = a ∧ (a ++ t).dropWhile f = t
  | [], [], _, _ => by simp
  | [], c :: t, _, h => by
    have hc : ¬ f c = true := fun e => h c t rfl ((hf c).1 e)
    simp [hc]
  | c :: a, t, ha, h => by
    have hc : f c = true := (hf c).2 (ha c (by simp))
    have ih := takeWhile_run hf (fun x hx => ha x (List.mem_cons_of_mem _ hx)) h (a := a)
    simp [hc, ih.1, ih.2]

theorem takeWhile_le {P : Char → Prop} {f : Char → Bool} (hf : ∀ c, f c = true ↔ P c) : ∀ {a : Str} (t : Str), (∀ c ∈ a, P c) →
    a.length ≤ ((a ++ t).takeWhile f).length
  | [], t, _ => by simp
  | c :: a, t, ha => by
    have hc : f c = true := (hf c).2 (ha c (by simp))
    have ih := takeWhile_le hf t (fun x hx => ha x (List.mem_cons_of_mem _ hx)) (a := a)
    simp only [List.cons_append, List.takeWhile_cons, hc, if_true, List.length_cons]
    omega

theorem run_unique {P : Char → Prop} : ∀ {a b t u : Str}, (∀ c ∈ a, P c) → (∀ c ∈ b, P c) → Stops P t → Stops P u → a ++ t = b ++ u →
    a = b ∧ t = u
  | [], [], _, _, _, _, _, _, e => ⟨rfl, e⟩
  | [], c :: b, _, u, _, hb, ht, _, e => absurd (hb c (by simp)) (ht c (b ++ u) e)
  | c :: a, [], t, _, ha, _, _, hu, e => absurd (ha c (by simp)) (hu c (a ++ t) e.symm)
  | c :: a, d :: b, t, u, ha, hb, ht, hu, e => by
    simp only [List.cons_append, List.cons.injEq] at e
    obtain ⟨e1, e2⟩ := run_unique (fun x hx => ha x (List.mem_cons_of_mem _ hx)) (fun x hx => hb x (List.mem_cons_of_mem _ hx)) ht hu e.2
    exact ⟨by rw [e.1, e1], e2⟩

theorem takeWhile_all {P : Char → Prop} {f : Char → Bool} (hf : ∀ c, f c = true ↔ P c) (s : Str) : ∀ c ∈ s.takeWhile f, P c := by
  intro c hc
  exact (hf c).1 (List.all_eq_true.1 List.all_takeWhile c hc)

theorem suffix_append_cases {x a b : Str} (h : x <:+ a ++ b) : x <:+ b ∨ ∃ a', a' ≠ [] ∧ a' <:+ a ∧ x = a' ++ b := by
  obtain ⟨y, hy⟩ := h
  rcases List.append_eq_append_iff.1 hy with ⟨z, h1, h2⟩ | ⟨z, h1, h2⟩
  · by_cases hz : z = []
    · subst hz
      left; rw [h2]; exact List.suffix_refl _
    · exact Or.inr ⟨z, hz, ⟨y, h1.symm⟩, h2⟩
  · left; exact ⟨z, h2.symm⟩

/-! ### the matchers -/

/-- class of the blanks after the stars -/
def blankOf (blanks : Bool) (c : Char) : Bool := blanks && isSpace c

theorem blankOf_iff (blanks : Bool) (c : Char) : blankOf blanks c = true ↔ (blanks = true ∧ Blank c) := by
  rw [blankOf, Bool.and_eq_true, isSpace_iff]

/-- word pattern with or without blanks -/
def matchW (blanks : Bool) (s : Str) : Option ℕ :=
  let w := s.takeWhile isWord
  if w = [] then none else
  match s.dropWhile isWord with
  | '*' :: '*' :: r =>
    let d := (r.dropWhile (blankOf blanks)).takeWhile isDigit
    if d = [] then none else some (w.length + 2 + (r.takeWhile (blankOf blanks)).length + d.length)
  | _ => none

/-- word pattern, or group pattern where allowed -/
def matchP (blanks groups : Bool) (s : Str) : Option ℕ := (matchW blanks s).or (if groups then matchGroup s else none)

theorem matchP_pow : matchP true true = matchPow := by
  funext s
  have : blankOf true = isSpace := by funext c; simp [blankOf]
  simp only [matchP, matchW, this, matchPow, matchWord, if_true]
  rfl

theorem matchP_arr : matchP false false = matchArr := by
  funext s
  have : blankOf false = fun _ => false := by funext c; simp [blankOf]
  have h1 : ∀ r : Str, r.dropWhile (fun _ => false) = r := by intro r; cases r <;> simp
  have h2 : ∀ r : Str, r.takeWhile (fun _ => false) = [] := by intro r; cases r <;> simp
  simp only [matchP, matchW, this, matchArr, h1, h2, List.length_nil, Nat.add_zero, Bool.false_eq_true, if_false, Option.or_none]
  rfl

/-- two stars, blanks and a digit -/
def PowTail (blanks : Bool) (t : Str) : Prop := ∃ b d r, (∀ c ∈ b, blanks = true ∧ Blank c) ∧ Digit d ∧ t = '*' :: '*' :: (b ++ d :: r)

theorem matchW_some {blanks : Bool} {w b d M : Str} (hw : w ≠ []) (hw' : ∀ c ∈ w, Word c) (hb : ∀ c ∈ b, blanks = true ∧ Blank c) (hd : d ≠ [])
    (hd' : ∀ c ∈ d, Digit c) (hM : Stops Digit M) :
    matchW blanks (w ++ '*' :: '*' :: (b ++ d) ++ M) = some (w ++ '*' :: '*' :: (b ++ d)).length := by
  obtain ⟨e1, e2⟩ := takeWhile_run isWord_iff (t := '*' :: '*' :: (b ++ (d ++ M))) hw' (stops_cons not_word_star _)
  have hs : Stops (fun c => blanks = true ∧ Blank c) (d ++ M) := by
    obtain ⟨x, y, rfl⟩ := List.exists_cons_of_ne_nil hd
    exact stops_cons (fun h => not_blank_digit (hd' x (by simp)) h.2) _
  obtain ⟨e3, e4⟩ := takeWhile_run (blankOf_iff blanks) (t := d ++ M) hb hs
  obtain ⟨e5, _⟩ := takeWhile_run isDigit_iff (t := M) hd' hM
  have e0 : w ++ '*' :: '*' :: (b ++ d) ++ M = w ++ '*' :: '*' :: (b ++ (d ++ M)) := by simp
  unfold matchW
  dsimp only
  rw [e0, e1, e2, if_neg hw]
  show (if ((b ++ (d ++ M)).dropWhile (blankOf blanks)).takeWhile isDigit = [] then none else some (w.length + 2 + ((b ++ (d ++ M)).takeWhile (blankOf blanks)).length + (((b ++ (d ++ M)).dropWhile (blankOf blanks)).takeWhile isDigit).length)) = _
  rw [e4, e3, e5, if_neg hd]
  simp only [List.length_append, List.length_cons]
  congr 1; omega

theorem matchW_anchor {blanks : Bool} {w b d : Str} (hw : w ≠ []) (hw' : ∀ c ∈ w, Word c) (hb : ∀ c ∈ b, blanks = true ∧ Blank c) (hd : d ≠ [])
    (hd' : ∀ c ∈ d, Digit c) (M : Str) :
    ∃ n, matchW blanks (w ++ '*' :: '*' :: (b ++ d) ++ M) = some n ∧ (w ++ '*' :: '*' :: (b ++ d)).length ≤ n := by
  obtain ⟨e1, e2⟩ := takeWhile_run isWord_iff (t := '*' :: '*' :: (b ++ (d ++ M))) hw' (stops_cons not_word_star _)
  have hs : Stops (fun c => blanks = true ∧ Blank c) (d ++ M) := by
    obtain ⟨x, y, rfl⟩ := List.exists_cons_of_ne_nil hd
    exact stops_cons (fun h => not_blank_digit (hd' x (by simp)) h.2) _
  obtain ⟨e3, e4⟩ := takeWhile_run (blankOf_iff blanks) (t := d ++ M) hb hs
  have e5 := takeWhile_le isDigit_iff M hd'
  have hne : (d ++ M).takeWhile isDigit ≠ [] := by
    intro h; rw [h] at e5
    have := List.length_pos_iff.2 hd
    simp at e5; exact hd e5
  have e0 : w ++ '*' :: '*' :: (b ++ d) ++ M = w ++ '*' :: '*' :: (b ++ (d ++ M)) := by simp
  refine ⟨w.length + 2 + b.length + ((d ++ M).takeWhile isDigit).length, ?_, ?_⟩
  · unfold matchW
    dsimp only
    rw [e0, e1, e2, if_neg hw]
    show (if ((b ++ (d ++ M)).dropWhile (blankOf blanks)).takeWhile isDigit = [] then none else some (w.length + 2 + ((b ++ (d ++ M)).takeWhile (blankOf blanks)).length + (((b ++ (d ++ M)).dropWhile (blankOf blanks)).takeWhile isDigit).length)) = _
    rw [e4, e3, if_neg hne]
  · simp only [List.length_append, List.length_cons]; omega

theorem digit_head {r : Str} (h : r.takeWhile isDigit ≠ []) : ∃ d t, Digit d ∧ r = d :: t := by
  cases r with
  | nil => simp at h
  | cons d t =>
    refine ⟨d, t, ?_, rfl⟩
    by_contra hd
    apply h
    rw [List.takeWhile_cons, if_neg (by rw [isDigit_iff]; exact hd)]

theorem matchW_begins {blanks : Bool} {s : Str} (h : matchW blanks s ≠ none) :
    ∃ w t, w ≠ [] ∧ (∀ c ∈ w, Word c) ∧ PowTail blanks t ∧ s = w ++ t := by
  unfold matchW at h
  dsimp only at h
  split_ifs at h with hw
  · exact absurd rfl h
  · refine ⟨s.takeWhile isWord, s.dropWhile isWord, hw, takeWhile_all isWord_iff s, ?_, (List.takeWhile_append_dropWhile).symm⟩
    split at h
    · rename_i r hr
      rw [hr]
      split_ifs at h with hd
      · exact absurd rfl h
      · obtain ⟨d, t, hd', e⟩ := digit_head hd
        exact ⟨r.takeWhile (blankOf blanks), d, t, takeWhile_all (blankOf_iff blanks) r, hd', by rw [← e, List.takeWhile_append_dropWhile]⟩
    · exact absurd rfl h

theorem matchGroup_open (s r : Str) (h : s.dropWhile notParen = ')' :: '*' :: '*' :: r) : matchGroup ('(' :: s) =
    if s.takeWhile notParen = [] then none else
      if r.takeWhile isDigit = [] then none else some ((s.takeWhile notParen).length + 4 + (r.takeWhile isDigit).length) := by
  have e : matchGroup ('(' :: s) = if s.takeWhile notParen = [] then none else match s.dropWhile notParen with
    | ')' :: '*' :: '*' :: r => if r.takeWhile isDigit = [] then none else some ((s.takeWhile notParen).length + 4 + (r.takeWhile isDigit).length)
    | _ => none := rfl
  rw [e, h]
  rfl

theorem matchGroup_some {c d M : Str} (hc : c ≠ []) (hc' : ∀ a ∈ c, ¬ Paren a) (hd : d ≠ []) (hd' : ∀ a ∈ d, Digit a) (hM : Stops Digit M) :
    matchGroup ('(' :: (c ++ ')' :: '*' :: '*' :: d) ++ M) = some ('(' :: (c ++ ')' :: '*' :: '*' :: d)).length := by
  obtain ⟨e1, e2⟩ := takeWhile_run notParen_iff (t := ')' :: '*' :: '*' :: (d ++ M)) hc' (stops_cons (by decide) _)
  obtain ⟨e5, _⟩ := takeWhile_run isDigit_iff (t := M) hd' hM
  have e0 : '(' :: (c ++ ')' :: '*' :: '*' :: d) ++ M = '(' :: (c ++ ')' :: '*' :: '*' :: (d ++ M)) := by simp
  rw [e0]
  rw [matchGroup_open _ _ e2, e1, if_neg hc, e5, if_neg hd]
  simp only [List.length_append, List.length_cons]
  congr 1; omega

theorem matchGroup_anchor {c d : Str} (hc : c ≠ []) (hc' : ∀ a ∈ c, ¬ Paren a) (hd : d ≠ []) (hd' : ∀ a ∈ d, Digit a) (M : Str) :
    ∃ n, matchGroup ('(' :: (c ++ ')' :: '*' :: '*' :: d) ++ M) = some n ∧ ('(' :: (c ++ ')' :: '*' :: '*' :: d)).length ≤ n := by
  obtain ⟨e1, e2⟩ := takeWhile_run notParen_iff (t := ')' :: '*' :: '*' :: (d ++ M)) hc' (stops_cons (by decide) _)
  have e5 := takeWhile_le isDigit_iff M hd'
  have hne : (d ++ M).takeWhile isDigit ≠ [] := by
    intro h; rw [h] at e5
    simp at e5; exact hd e5
  have e0 : '(' :: (c ++ ')' :: '*' :: '*' :: d) ++ M = '(' :: (c ++ ')' :: '*' :: '*' :: (d ++ M)) := by simp
  refine ⟨c.length + 4 + ((d ++ M).takeWhile isDigit).length, ?_, ?_⟩
  · rw [e0]
    rw [matchGroup_open _ _ e2, e1, if_neg hc, if_neg hne]
  · simp only [List.length_append, List.length_cons]; omega

theorem matchGroup_begins {s : Str} (h : matchGroup s ≠ none) :
    ∃ c d t, c ≠ [] ∧ (∀ a ∈ c, ¬ Paren a) ∧ Digit d ∧ s = '(' :: (c ++ ')' :: '*' :: '*' :: d :: t) := by
  unfold matchGroup at h
  split at h
  · rename_i s'
    dsimp only at h
    split_ifs at h with hc
    · exact absurd rfl h
    · split at h
      · rename_i r hr
        split_ifs at h with hd
        · exact absurd rfl h
        · obtain ⟨d, t, hd', e⟩ := digit_head hd
          refine ⟨s'.takeWhile notParen, d, t, hc, takeWhile_all notParen_iff s', hd', ?_⟩
          rw [← e, ← hr, List.takeWhile_append_dropWhile]
      · exact absurd rfl h
  · exact absurd rfl h

theorem matchGroup_head {s : Str} (h : ∀ r, s ≠ '(' :: r) : matchGroup s = none := by
  by_contra hn
  obtain ⟨c, d, t, _, _, _, e⟩ := matchGroup_begins hn
  exact h _ e

theorem matchW_head {blanks : Bool} {s : Str} (h : Stops Word s) : matchW blanks s = none := by
  by_contra hn
  obtain ⟨w, t, hw, hw', _, e⟩ := matchW_begins hn
  obtain ⟨x, y, rfl⟩ := List.exists_cons_of_ne_nil hw
  exact h x (y ++ t) e (hw' x (by simp))

theorem beginsPower_of_matchP {blanks groups : Bool} {s : Str} (h : matchP blanks groups s ≠ none) : BeginsPower blanks groups s := by
  unfold matchP at h
  by_cases hw : matchW blanks s = none
  · rw [hw, Option.none_or] at h
    cases groups with
    | false => simp at h
    | true =>
      obtain ⟨c, d, t, h⟩ := matchGroup_begins (by simpa using h)
      exact Or.inr ⟨rfl, c, d, t, h⟩
  · obtain ⟨w, t, h1, h2, ⟨b, d, r, h3, h4, h5⟩, h6⟩ := matchW_begins hw
    exact Or.inl ⟨w, b, d, r, h1, h2, h3, h4, by rw [h6, h5]⟩

/-! ### texts without two stars in a row, ending with a parenthesis -/

theorem stars_mid {a R M : Str} (h : '*' :: '*' :: R = a ++ ')' :: M) : ['*', '*'] <:+: a := by
  match a, h with
  | [], h => simp at h
  | [x], h => simp at h
  | x :: y :: a, h =>
    simp only [List.cons_append, List.cons.injEq] at h
    obtain ⟨rfl, rfl, _⟩ := h
    exact ⟨[], a, by simp⟩

theorem matchW_quiet {blanks : Bool} {y M : Str} (h : ¬ ['*', '*'] <:+: y) : matchW blanks (y ++ ')' :: M) = none := by
  by_contra hn
  obtain ⟨w, t, _, hw', ⟨b, d, r, _, _, rfl⟩, e⟩ := matchW_begins hn
  rcases List.append_eq_append_iff.1 e with ⟨a, h1, h2⟩ | ⟨a, h1, h2⟩
  · cases a with
    | nil => simp at h2
    | cons x a =>
      simp only [List.cons_append, List.cons.injEq] at h2
      exact not_word_rp (hw' ')' (by rw [h1, h2.1]; simp))
  · exact h (by rw [h1]; exact (stars_mid h2).trans (List.suffix_append w a).isInfix)

theorem matchGroup_quiet {y M : Str} (h : ¬ ['*', '*'] <:+: y) (hM : ¬ PowTail false M) : matchGroup (y ++ ')' :: M) = none := by
  by_contra hn
  obtain ⟨c, d, t, _, hc, hd, e⟩ := matchGroup_begins hn
  have hM' : M ≠ '*' :: '*' :: d :: t := fun h => hM ⟨[], d, t, by simp, hd, by simpa using h⟩
  cases y with
  | nil => simp at e
  | cons x y =>
    simp only [List.cons_append, List.cons.injEq] at e
    rcases List.append_eq_append_iff.1 e.2 with ⟨a, h1, h2⟩ | ⟨a, h1, h2⟩
    · cases a with
      | nil => simp at h2; exact hM' h2
      | cons z a =>
        simp only [List.cons_append, List.cons.injEq] at h2
        exact hc ')' (by rw [h1, h2.1]; simp) (Or.inr rfl)
    · cases a with
      | nil => simp at h2; exact hM' h2.symm
      | cons z a =>
        simp only [List.cons_append, List.cons.injEq] at h2
        have := stars_mid h2.2
        exact h (this.trans ⟨x :: c ++ [z], [], by simp [h1]⟩)

theorem powTail_mono {blanks : Bool} {t : Str} (h : PowTail false t) : PowTail blanks t := by
  obtain ⟨b, d, r, h1, h2, h3⟩ := h
  have : b = [] := List.eq_nil_iff_forall_not_mem.2 fun c hc => absurd (h1 c hc).1 (by simp)
  subst this
  exact ⟨[], d, r, by simp, h2, h3⟩

theorem matchP_quiet {blanks groups : Bool} {y M : Str} (h : ¬ ['*', '*'] <:+: y) (hM : ¬ PowTail blanks M) :
    matchP blanks groups (y ++ ')' :: M) = none := by
  unfold matchP
  rw [matchW_quiet h, matchGroup_quiet h fun h => hM (powTail_mono h)]
  simp

end SymPy
end Meshless
