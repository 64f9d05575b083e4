import Verif.Lemmas.SymPyBoth
import Verif.Lemmas.SymPyValue
import Verif.Lemmas.SymPyPrint

/-! C59–C64, C72: the text helpers of meshless/dev/sympytools.py. -/

set_option autoImplicit false

namespace Meshless
open Spec SymPy

/-! ### checking cuts of given texts -/

theorem not_begins {blanks groups : Bool} {s : Str} (h : matchP blanks groups s = none) : ¬ BeginsPower blanks groups s := by
  rintro (⟨w, b, d, t, h1, h2, h3, h4, rfl⟩ | ⟨rfl, c, d, t, h1, h2, h3, rfl⟩)
  · obtain ⟨n, e, _⟩ := matchW_anchor (d := [d]) h1 h2 h3 (by simp) (by simpa using h4) t
    have e' : w ++ '*' :: '*' :: (b ++ [d]) ++ t = w ++ '*' :: '*' :: (b ++ d :: t) := by simp
    rw [e'] at e
    rw [matchP_of_W e] at h
    exact absurd h (by simp)
  · obtain ⟨n, e, _⟩ := matchGroup_anchor (d := [d]) h1 h2 (by simp) (by simpa using h3) t
    have e' : '(' :: (c ++ ')' :: '*' :: '*' :: [d]) ++ t = '(' :: (c ++ ')' :: '*' :: '*' :: d :: t) := by simp
    rw [e'] at e
    rw [matchP_lp.trans e] at h
    exact absurd h (by simp)

theorem follows_cons {blanks : Bool} {c : Char} {t : Str} (h : ¬ Word c) (h' : c ≠ '*') : Follows blanks (c :: t) :=
  ⟨stops_cons h t, by rintro ⟨b, d, r, _, _, e⟩; simp only [List.cons.injEq] at e; exact h' e.1⟩

theorem follows_nil {blanks : Bool} : Follows blanks [] := ⟨stops_nil _, by rintro ⟨b, d, r, _, _, e⟩; simp at e⟩

/-! ### C59 -/

theorem source_chars (s : Str) : sourceText (s.map Piece.chr) = s := by
  induction s with
  | nil => rfl
  | cons c s ih => simp [sourceText] at ih ⊢; simp [Piece.source, ih]

theorem result_chars (s : Str) : resultText (s.map Piece.chr) = s := by
  induction s with
  | nil => rfl
  | cons c s ih => simp [resultText] at ih ⊢; simp [Piece.result, ih]

theorem begins_stars {blanks groups : Bool} {s : Str} (h : BeginsPower blanks groups s) : ['*', '*'] <:+: s := by
  rcases h with ⟨w, b, d, t, _, _, _, _, rfl⟩ | ⟨_, c, d, t, _, _, _, rfl⟩
  · exact ⟨w, b ++ d :: t, by simp⟩
  · exact ⟨'(' :: (c ++ [')']), d :: t, by simp⟩

theorem cut_chars (blanks groups : Bool) : ∀ s : Str, ¬ ['*', '*'] <:+: s → Cut blanks groups (s.map Piece.chr)
  | [], _ => trivial
  | c :: s, h => ⟨fun hb => h (by rw [source_chars] at hb; exact begins_stars hb), cut_chars blanks groups s fun hi => h (hi.trans (List.suffix_cons c s).isInfix)⟩

theorem calls_chars : ∀ s : Str, ¬ ['p', 'o', 'w', '('] <:+: s → Calls (s.map Piece.chr)
  | [], _ => trivial
  | c :: s, h => ⟨fun hb => h (by rw [source_chars] at hb; exact hb.isInfix), fun v b d b' r' e => by cases s <;> simp at e,
      calls_chars s fun hi => h (hi.trans (List.suffix_cons c s).isInfix)⟩

/-- C59: a text without `**` and without `pow(` is left alone -/
theorem C59_unchanged (s : Str) (h1 : ¬ "**".toList <:+: s) (h2 : ¬ "pow(".toList <:+: s) : pow2mul s = .ok s := by
  have := pow2mul_pieces (cut_chars true true s h1) (calls_chars s h2)
  rwa [source_chars, result_chars] at this

/-- a text meeting the hypotheses of C59 -/
example : pow2mul "2*x*(y - pi)/sin(power)".toList = .ok "2*x*(y - pi)/sin(power)".toList := by
  apply C59_unchanged
  · decide
  · decide

/-! ### C60 -/

/-- C60 for texts cut into pieces: powers of words, powers of innermost parentheses and calls of `pow` are expanded, everything else is kept, whatever
powers are contained in others -/
theorem C60_pieces (l : List Piece) (hc : Cut true true l) (ha : Calls l) : pow2mul (sourceText l) = .ok (resultText l) := pow2mul_pieces hc ha

/-- every power in the text, with its whole exponent, is followed by neither a letter or digit nor a second exponent -/
def Separated (s : Str) : Prop := ∀ a w b d t, w ≠ [] → (∀ c ∈ w, Word c) → (∀ c ∈ b, Blank c) → IsDigits d → (∀ c r, t = c :: r → ¬ Digit c) →
  s = a ++ (w ++ '*' :: '*' :: (b ++ d) ++ t) → Follows true t

theorem Separated.suffix {s a t : Str} (h : Separated s) (e : s = a ++ t) : Separated t := by
  intro a' w b d t' h1 h2 h3 h4 h5 e'
  exact h (a ++ a') w b d t' h1 h2 h3 h4 h5 (by rw [e, e', ← List.append_assoc])

/-- a text without parentheses can be cut into characters and powers of words -/
theorem cut_exists (n : ℕ) : ∀ s : Str, s.length ≤ n → (∀ c ∈ s, ¬ Paren c) → Separated s →
    ∃ l : List Piece, Cut true true l ∧ sourceText l = s ∧ ∀ P ∈ l, (∃ c, P = .chr c) ∨ ∃ w b d, P = .pow w b d := by
  induction n with
  | zero =>
    intro s hl _ _
    have : s = [] := by simpa using hl
    subst this
    exact ⟨[], trivial, rfl, by simp⟩
  | succ n ih =>
    intro s hl hp hs
    cases s with
    | nil => exact ⟨[], trivial, rfl, by simp⟩
    | cons c s =>
      by_cases hb : BeginsPower true true (c :: s)
      · rcases hb with ⟨w, b, d0, t0, h1, h2, h3, h4, e⟩ | ⟨_, c', d, t, _, _, _, e⟩
        · -- take the whole exponent
          obtain ⟨d, t, hd, ht, e1⟩ : ∃ d t, IsDigits d ∧ (∀ c r, t = c :: r → ¬ Digit c) ∧ d0 :: t0 = d ++ t := by
            refine ⟨(d0 :: t0).takeWhile isDigit, (d0 :: t0).dropWhile isDigit, ⟨?_, takeWhile_all isDigit_iff _⟩, ?_, List.takeWhile_append_dropWhile.symm⟩
            · rw [List.takeWhile_cons, if_pos (by rw [isDigit_iff]; exact h4)]; simp
            · intro c r e hd
              have hne : (d0 :: t0).dropWhile isDigit ≠ [] := by rw [e]; simp
              have := List.head_dropWhile_not isDigit hne
              simp only [e, List.head_cons] at this
              rw [show isDigit c = true from hd] at this
              exact absurd this (by simp)
          have e2 : c :: s = w ++ '*' :: '*' :: (b ++ d) ++ t := by rw [e, e1]; simp
          have hf := hs [] w b d t h1 h2 (fun c hc => (h3 c hc).2) hd ht (by rw [e2]; rfl)
          have hlen : t.length ≤ n := by
            have := congrArg List.length e2
            simp only [List.length_append, List.length_cons] at this
            have : 0 < w.length := List.length_pos_iff.2 h1
            simp only [List.length_cons] at hl
            omega
          obtain ⟨l, g1, g2, g3⟩ := ih t hlen (fun x hx => hp x (by rw [e2]; simp [hx])) (hs.suffix e2)
          refine ⟨.pow w b d :: l, ⟨h1, h2, h3, hd.1, hd.2, by rw [g2]; exact hf, g1⟩, ?_, ?_⟩
          · rw [e2, ← g2]; rfl
          · intro P hP
            rcases List.mem_cons.1 hP with rfl | hP
            · exact Or.inr ⟨w, b, d, rfl⟩
            · exact g3 P hP
        · exact absurd (Or.inl rfl) (hp '(' (by rw [e]; simp))
      · obtain ⟨l, g1, g2, g3⟩ := ih s (by simpa using hl) (fun x hx => hp x (List.mem_cons_of_mem _ hx)) (hs.suffix (a := [c]) rfl)
        refine ⟨.chr c :: l, ⟨by rw [g2]; exact hb, g1⟩, ?_, ?_⟩
        · rw [← g2]; rfl
        · intro P hP
          rcases List.mem_cons.1 hP with rfl | hP
          · exact Or.inl ⟨c, rfl⟩
          · exact g3 P hP

theorem calls_free : ∀ {l : List Piece}, (∀ c ∈ sourceText l, ¬ Paren c) → (∀ P ∈ l, (∃ c, P = .chr c) ∨ ∃ w b d, P = .pow w b d) → Calls l
  | [], _, _ => trivial
  | .chr c :: r, h, hk => by
    refine ⟨?_, ?_, calls_free (fun x hx => h x (by simp [sourceText] at hx ⊢; exact Or.inr hx)) fun P hP => hk P (List.mem_cons_of_mem _ hP)⟩
    · rintro ⟨t, e⟩
      exact h '(' (by show '(' ∈ c :: sourceText r; rw [← e]; simp) (Or.inl rfl)
    · rintro v b d b' r' rfl
      rcases hk (.call v b d b') (by simp) with ⟨_, e⟩ | ⟨_, _, _, e⟩ <;> simp at e
  | .pow w b d :: r, h, hk =>
    calls_free (l := r) (fun x hx => h x (by simp [sourceText] at hx ⊢; exact Or.inr hx)) fun P hP => hk P (List.mem_cons_of_mem _ hP)
  | .grp c d :: r, _, hk => by rcases hk (.grp c d) (by simp) with ⟨_, e⟩ | ⟨_, _, _, e⟩ <;> simp at e
  | .call v b d b' :: r, _, hk => by rcases hk (.call v b d b') (by simp) with ⟨_, e⟩ | ⟨_, _, _, e⟩ <;> simp at e

/-- C60: a text without parentheses whose powers are separated is made of characters and powers `word**n` so that no character begins a power, and `pow2mul`
replaces every power by the product in parentheses and keeps every other character -/
theorem C60_words (s : Str) (hp : ∀ c ∈ s, ¬ Paren c) (hs : Separated s) :
    ∃ l : List Piece, Cut true true l ∧ (∀ P ∈ l, (∃ c, P = .chr c) ∨ ∃ w b d, P = .pow w b d) ∧ s = sourceText l ∧ pow2mul s = .ok (resultText l) := by
  obtain ⟨l, h1, h2, h3⟩ := cut_exists s.length s (le_refl _) hp hs
  refine ⟨l, h1, h3, h2.symm, ?_⟩
  rw [← h2]
  exact pow2mul_pieces h1 (calls_free (by rw [h2]; exact hp) h3)

/-- powers contained in one another: `b**2`, `ab**2`, `b**25` -/
def exPieces : List Piece :=
  [.pow "b".toList [] "2".toList, .chr ' ', .chr '+', .chr ' ', .pow "ab".toList [] "2".toList, .chr '-', .pow "b".toList " ".toList "3".toList]

theorem exPieces_cut : Cut true true exPieces := by
  have f1 : Follows true " + ab**2-b** 3".toList := follows_cons (by decide) (by decide)
  have f2 : Follows true "-b** 3".toList := follows_cons (by decide) (by decide)
  refine ⟨by decide, by decide, by decide, by decide, by decide, f1, not_begins (by decide), not_begins (by decide), not_begins (by decide),
    by decide, by decide, by decide, by decide, by decide, f2, not_begins (by decide), by decide, by decide, ?_, by decide, by decide, follows_nil, trivial⟩
  intro c hc
  exact ⟨rfl, by revert c; decide⟩

example : pow2mul "b**2 + ab**2-b** 3".toList = .ok "(b*b) + (ab*ab)-(b*b*b)".toList := by
  refine C60_pieces exPieces exPieces_cut (calls_free ?_ ?_)
  · decide
  · intro P hP
    simp only [exPieces, List.mem_cons, List.not_mem_nil, or_false] at hP
    rcases hP with rfl | rfl | rfl | rfl | rfl | rfl | rfl <;> first | exact Or.inl ⟨_, rfl⟩ | exact Or.inr ⟨_, _, _, rfl⟩

/-- the text of the project's own test, with all three kinds of powers -/
example : pow2mul "a** 3 + pow((b+2)*c+1, 2) + (a+b * c)**3".toList =
    .ok "(a*a*a) + (((b+2)*c+1)*((b+2)*c+1)) + ((a+b*c)*(a+b*c)*(a+b*c))".toList := by
  refine C60_pieces [.pow "a".toList " ".toList "3".toList, .chr ' ', .chr '+', .chr ' ', .call "(b+2)*c+1".toList " ".toList "2".toList [], .chr ' ', .chr '+',
    .chr ' ', .grp "a+b * c".toList "3".toList] ?_ ?_
  · refine ⟨by decide, by decide, ?_, by decide, by decide, follows_cons (by decide) (by decide), not_begins (by decide), not_begins (by decide),
      not_begins (by decide), ?_, not_begins (by decide), not_begins (by decide), not_begins (by decide), rfl, by decide, by decide, ?_, by decide, by decide,
      follows_nil, trivial⟩
    · intro c hc
      exact ⟨rfl, by revert c; decide⟩
    · have : ∀ x ∈ (Piece.call "(b+2)*c+1".toList " ".toList "2".toList []).source.tails, x ≠ [] →
          matchP true true (x ++ " + (a+b * c)**3".toList) = none := by decide
      intro x hx hs
      exact not_begins (this x ((List.mem_tails _ _).2 hs) hx)
    · decide
  · refine ⟨by decide, by simp, by decide, by simp, by decide, ?_, by decide, by decide, by decide, by decide, by decide, by decide, by decide,
      by decide, by decide, by decide, by simp, by decide, by simp, by decide, by simp, trivial⟩
    exact fun _ _ _ _ _ _ => by decide

/-! ### C61 -/

/-- C61 as far as it holds: if every power in the text is a whole operand of the expression (the base a name, a whole number or an innermost parenthesis that
is not a function's argument, with no power inside), the returned text is an expression with the same value. Missing: functions, decimals and nested
powers, see `C61_false` and `C61_raises`. -/
theorem C61_value_partial (ρ : Str → ℝ) (φ : Str → ℝ → ℝ) (l : List Piece) (v : ℝ) (hc : Cut true true l) (ha : Calls l) (h : PieceReads ρ φ .sum l v) :
    Reads ρ φ .sum (sourceText l) v ∧ ∃ out, pow2mul (sourceText l) = .ok out ∧ Reads ρ φ .sum out v :=
  ⟨piece_source h, _, pow2mul_pieces hc ha, piece_result h⟩

theorem reads_name {ρ : Str → ℝ} {φ : Str → ℝ → ℝ} {w : Str} (h : IsName w) : Reads ρ φ .atom w (ρ w) := by
  have := Gram.name (ch := id) (base := fun _ _ _ => False) (ρ := ρ) (φ := φ) h
  rwa [List.map_id] at this

/-- an expression meeting the hypotheses of C61: `b**2 + ab**2-b** 3` -/
example (ρ : Str → ℝ) (φ : Str → ℝ → ℝ) : PieceReads ρ φ .sum exPieces (ρ "b".toList ^ 2 + ρ "ab".toList ^ 2 - ρ "b".toList ^ 3) := by
  have p : ∀ w b d, IsName w → (∀ c ∈ b, Blank c) → IsDigits d → 0 < numeral d →
      Gram Piece.chr (Operand ρ φ) ρ φ .term [.pow w b d] (ρ w ^ numeral d) := fun w b d h1 h2 h3 h4 =>
    .ofUnary (.ofPower (.given (.pow (reads_name h1) h2 h3 h4)))
  have nb : IsName "b".toList := ⟨by decide, by decide, by intro c r e; simp at e; rw [← e.1]; decide⟩
  have nab : IsName "ab".toList := ⟨by decide, by decide, by intro c r e; simp at e; rw [← e.1]; decide⟩
  have h1 := p "b".toList [] "2".toList nb (by simp) ⟨by decide, by decide⟩ (by decide)
  have h2 := p "ab".toList [] "2".toList nab (by simp) ⟨by decide, by decide⟩ (by decide)
  have h3 := p "b".toList " ".toList "3".toList nb (by decide) ⟨by decide, by decide⟩ (by decide)
  exact Gram.sub (Gram.add (Gram.blankR (b := ' ') (by decide) (.ofTerm h1)) (Gram.blankL (b := ' ') (by decide) h2)) h3

/-- C61 fails for powers of function values: `sin(x)**2` becomes `sin((x)*(x))`, another function of `x` -/
theorem C61_false : ∃ (s out : Str) (ρ : Str → ℝ) (φ : Str → ℝ → ℝ) (v u : ℝ), pow2mul s = .ok out ∧ Reads ρ φ .sum s v ∧ Reads ρ φ .sum out u ∧ v ≠ u := by
  have ns : IsName "sin".toList := ⟨by decide, by decide, by intro c r e; simp at e; rw [← e.1]; decide⟩
  have nx : IsName "x".toList := ⟨by decide, by decide, by intro c r e; simp at e; rw [← e.1]; decide⟩
  -- a function that is not multiplicative
  refine ⟨"sin(x)**2".toList, "sin((x)*(x))".toList, fun _ => 1, fun _ t => t + 1, 4, 2, ?_, ?_, ?_, by norm_num⟩
  · refine C60_pieces [.chr 's', .chr 'i', .chr 'n', .grp "x".toList "2".toList] ?_ ?_
    · exact ⟨not_begins (by decide), not_begins (by decide), not_begins (by decide), rfl, by decide, by decide, by decide, by decide, by decide, follows_nil, trivial⟩
    · exact ⟨by decide, by simp, by decide, by simp, by decide, by simp, trivial⟩
  · have h1 := Gram.app (ch := id) (base := fun _ _ _ => False) (ρ := fun _ => 1) (φ := fun _ t => t + 1) ns (reads_up (reads_name nx))
    have h2 := Gram.pow (ch := id) h1 (.ofPower (.ofAtom (reads_digits (d := "2".toList) ⟨by decide, by decide⟩)))
    have e : ((1 : ℝ) + 1) ^ ((numeral "2".toList : ℕ) : ℝ) = 4 := by
      rw [Real.rpow_natCast, show numeral "2".toList = 2 from by decide]; norm_num
    rw [e] at h2
    exact .ofTerm (.ofUnary (.ofPower h2))
  · have hx : Reads (fun _ => 1) (fun _ t => t + 1) .atom "(x)".toList 1 := Gram.paren (ch := id) (reads_up (reads_name nx))
    have h1 := Gram.mul (ch := id) (.ofUnary (.ofPower (.ofAtom hx))) (.ofPower (.ofAtom hx))
    have h2 := Gram.app (ch := id) (base := fun _ _ _ => False) (ρ := fun _ => 1) (φ := fun _ t => t + 1) ns (.ofTerm h1)
    have e : (1 : ℝ) * 1 + 1 = 2 := by norm_num
    rw [e] at h2
    exact reads_up h2

/-- C61 fails for nested powers: `(a + b**2)**3` makes `pow2mul` raise ValueError -/
theorem C61_raises : pow2mul "(a + b**2)**3".toList = .error .valueError := by
  have h1 : findAll matchPow "(a + b**2)**3".toList = ["(a + b**2)**3".toList] := by
    have := findAll_hit matchPow "(a + b**2)**3".toList [] (by decide) (by decide)
    rw [List.append_nil] at this
    rw [this, findAll]
  have h2 : powNew "(a + b**2)**3".toList = .error .valueError := by
    have h3 : splitStr "**".toList ("(a + b**2)**3".toList.filter (· != ' ')) = ["(a+b".toList, "2)".toList, "3".toList] := by
      have e1 := splitStr_one "**".toList (by decide) "2)**3".toList "(a+b".toList (by
        have : ∀ x ∈ "(a+b".toList.tails, x ≠ [] → ¬ "**".toList <+: x ++ ("**".toList ++ "2)**3".toList) := by decide
        exact fun x hx hs => this x ((List.mem_tails _ _).2 hs) hx)
      have e2 := splitStr_stars (a := "2)".toList) (b := "3".toList) (by decide) (by
        intro u hu
        have := congrArg List.getLast? hu
        rw [List.getLast?_append] at this
        simp at this) (by decide)
      exact e1.trans (congrArg _ e2)
    rw [powNew, h3]
  rw [pow2mul, h1, pairs, h2]

/-! ### C62 -/

theorem place_eq (d i : ℕ) (hd : dofOf (some d) = some d) : "i".toList ++ num (nodeNo d i) ++ "*dof+".toList ++ num (i % d) = place (some d) i := by
  cases d with
  | zero => simp [dofOf] at hd
  | succ d => rfl

theorem dof_cases (dof : Option ℕ) : (dofOf dof = none ∧ (∀ i, place dof i = num i) ∧ ∀ w i, offset w dof i = w ++ "+".toList ++ num i) ∨
    ∃ d, 0 < d ∧ dof = some d ∧ dofOf dof = some d := by
  match dof with
  | none => exact Or.inl ⟨rfl, fun _ => rfl, fun _ _ => rfl⟩
  | some 0 => exact Or.inl ⟨rfl, fun _ => rfl, fun _ _ => rfl⟩
  | some (d + 1) => exact Or.inr ⟨d + 1, by omega, rfl, rfl⟩

/-- the non-zero entries in the order of printing -/
def nonZero (m : SMat) : List (ℕ × ℕ) := m.enum.filter fun ij => (m.entry ij.1 ij.2).isSome

theorem mem_nonZero (m : SMat) (i j : ℕ) : (i, j) ∈ nonZero m ↔ i < m.rows ∧ j < m.cols ∧ m.entry i j ≠ none := by
  rw [nonZero, List.mem_filter, mem_enum, Option.isSome_iff_ne_none]
  tauto

theorem denseStep_eq (m : SMat) (name : Str) (p : Bool) (dof : Option ℕ) (text : ℕ × ℕ → Str) (ij : ℕ × ℕ)
    (ht : ∀ v, m.entry ij.1 ij.2 = some v → valueText p v = .ok (text ij)) :
    denseStep m name p dof ij = .ok (if (m.entry ij.1 ij.2).isSome then [denseLine name dof ij (text ij)] else []) := by
  unfold denseStep
  cases h : m.entry ij.1 ij.2 with
  | none => rfl
  | some v =>
    dsimp only
    rw [ht v h]
    dsimp only
    rcases dof_cases dof with ⟨h1, h2, _⟩ | ⟨d, hd, rfl, h1⟩
    · rw [h1]; dsimp only; rw [denseLine, h2, h2]; rfl
    · rw [h1]; dsimp only
      rw [denseLine, ← place_eq d ij.1 h1, ← place_eq d ij.2 h1]
      simp

/-- C62: one line per non-zero entry, row by row, with its indices; none for the zeros; the announced number is their number. `text` is what is printed for
an entry, its own text or the one with the powers expanded. -/
theorem C62_dense (m : SMat) (name : Str) (header : Option Str) (powByMul : Bool) (dof : Option ℕ) (text : ℕ × ℕ → Str)
    (ht : ∀ i j v, i < m.rows → j < m.cols → m.entry i j = some v → (if powByMul then pow2mul v else .ok v) = .ok (text (i, j))) :
    ∃ ps : List (ℕ × ℕ), ps.Pairwise RowMajor ∧ (∀ i j, (i, j) ∈ ps ↔ i < m.rows ∧ j < m.cols ∧ m.entry i j ≠ none) ∧
      mprintDense m name header [] powByMul dof = .ok (joinStr "\n".toList ((match header with | none => [] | some h => if h = [] then [] else [h]) ++
        ["# ".toList ++ name, "# ".toList ++ name ++ "_num=".toList ++ digits ps.length] ++ ps.map fun ij => denseLine name dof ij (text ij))) := by
  refine ⟨nonZero m, (enum_pairwise m).filter _, mem_nonZero m, ?_⟩
  have h := printLoop_ok (l := m.enum) (f := denseStep m name powByMul dof) (fun ij hij => denseStep_eq m name powByMul dof text ij fun v hv => by
    obtain ⟨i, j⟩ := ij
    rw [mem_enum] at hij
    exact ht i j v hij.1 hij.2 hv)
  rw [flatMap_if (fun ij => (m.entry ij.1 ij.2).isSome) (fun ij => [denseLine name dof ij (text ij)]), ← nonZero] at h
  have e : ∀ (l : List (ℕ × ℕ)) (g : ℕ × ℕ → Str), l.flatMap (fun a => [g a]) = l.map g := by
    intro l g; induction l with
    | nil => rfl
    | cons a l ih => rw [List.flatMap_cons, ih]; rfl
  rw [e] at h
  unfold mprintDense denseLines
  rw [h]
  simp only [withSubs, List.mergeSort_nil, List.filter_nil, if_true]
  cases header <;> rfl

/-- C62, exceptions: printing fails exactly when the expansion of the powers of some non-zero entry fails -/
theorem C62_outcome (m : SMat) (name : Str) (header : Option Str) (powByMul : Bool) (dof : Option ℕ) :
    (∃ out, mprintDense m name header [] powByMul dof = .ok out) ↔
      ∀ i j v, i < m.rows → j < m.cols → m.entry i j = some v → ∃ t, (if powByMul then pow2mul v else .ok v) = .ok t := by
  constructor
  · rintro ⟨out, h⟩ i j v hi hj hv
    cases hx : valueText powByMul v with
    | ok t => exact ⟨t, hx⟩
    | error e =>
      exfalso
      have hs : denseStep m name powByMul dof (i, j) = .error e := by
        unfold denseStep
        dsimp only
        rw [hv]
        dsimp only
        rw [hx]
      obtain ⟨e', he⟩ := printLoop_error ((mem_enum m i j).2 ⟨hi, hj⟩) hs
      rw [mprintDense, denseLines, he] at h
      exact absurd h (by simp)
  · intro h
    have : ∀ ij : ℕ × ℕ, ∃ t, ∀ v, ij.1 < m.rows → ij.2 < m.cols → m.entry ij.1 ij.2 = some v → valueText powByMul v = .ok t := by
      rintro ⟨i, j⟩
      by_cases hij : i < m.rows ∧ j < m.cols
      · cases hv : m.entry i j with
        | none => exact ⟨[], by simp⟩
        | some v =>
          obtain ⟨t, ht⟩ := h i j v hij.1 hij.2 hv
          refine ⟨t, fun v' _ _ hv' => ?_⟩
          rw [← Option.some.inj hv']; exact ht
      · exact ⟨[], fun v h1 h2 => absurd ⟨h1, h2⟩ hij⟩
    choose text ht using this
    obtain ⟨ps, _, _, e⟩ := C62_dense m name header powByMul dof text (fun i j v h1 h2 h3 => ht (i, j) v h1 h2 h3)
    exact ⟨_, e⟩

/-- a matrix with a zero, plain and with two degrees of freedom per node -/
def exMat : SMat := ⟨2, 3, fun i j => if i = j then none else if i < j then some "x**2".toList else some "y".toList⟩

example : mprintDense exMat "k".toList none [] false (some 2) = .ok
    "# k\n# k_num=4\nk[i1*dof+0, i1*dof+1] += x**2\nk[i1*dof+0, i2*dof+0] += x**2\nk[i1*dof+1, i1*dof+0] += y\nk[i1*dof+1, i2*dof+0] += x**2".toList := by
  decide +kernel

/-! ### C63 -/

/-- the lines in front: the number stands second, so with a header it comes before the name -/
def sparseTop (ns : Str) (n : ℕ) : Option Str → List Str
  | none => ["# ".toList ++ ns, "# ".toList ++ ns ++ "_num=".toList ++ digits n]
  | some h => if h = [] then ["# ".toList ++ ns, "# ".toList ++ ns ++ "_num=".toList ++ digits n]
      else [h, "# ".toList ++ ns ++ "_num=".toList ++ digits n, "# ".toList ++ ns]

/-- what the program compares with `is_symmetric`: the indices, or their remainders with degrees of freedom per node -/
def upper : Option ℕ → ℕ × ℕ → Bool
  | some (d + 1), ij => decide (ij.1 % (d + 1) ≤ ij.2 % (d + 1))
  | _, ij => decide (ij.1 ≤ ij.2)

theorem sparseStep_eq (m : SMat) (name : Str) (p sym : Bool) (dof : Option ℕ) (text : ℕ × ℕ → Str) (ij : ℕ × ℕ)
    (ht : ∀ v, m.entry ij.1 ij.2 = some v → valueText p v = .ok (text ij)) :
    sparseStep m name p sym dof ij =
      .ok (if (m.entry ij.1 ij.2).isSome && (!sym || upper dof ij) then sparseBlock name dof ij (text ij) else []) := by
  have hu : ∀ a b : ℕ, (!sym || decide (a ≤ b)) = !(sym && decide (a > b)) := by
    intro a b
    rcases Nat.lt_or_ge b a with h | h
    · cases sym <;> simp [h, Nat.not_le.2 h]
    · cases sym <;> simp [h, Nat.not_lt.2 h]
  have hl : upper dof ij = decide (localNo dof ij.1 ≤ localNo dof ij.2) := by
    match dof with
    | none => rfl
    | some 0 => rfl
    | some (d + 1) => rfl
  unfold sparseStep
  rw [hl, hu]
  cases h : m.entry ij.1 ij.2 with
  | none => rfl
  | some v =>
    dsimp only
    by_cases hs : (sym && decide (localNo dof ij.1 > localNo dof ij.2)) = true
    · rw [if_pos hs, hs]; rfl
    · rw [if_neg hs, ht v h]
      rw [Bool.not_eq_true] at hs
      rw [hs]
      have e : ∀ a b : Str, a ++ "r[c] = row+".toList ++ b = a ++ "r[c] = ".toList ++ ("row".toList ++ "+".toList ++ b) := by intro a b; simp
      have e' : ∀ a b : Str, a ++ "c[c] = col+".toList ++ b = a ++ "c[c] = ".toList ++ ("col".toList ++ "+".toList ++ b) := by intro a b; simp
      have g : ∀ a b c : Str, a ++ "r[c] = i".toList ++ b ++ "*dof+".toList ++ c = a ++ "r[c] = ".toList ++ ("i".toList ++ b ++ "*dof+".toList ++ c) := by
        intro a b c; simp
      have g' : ∀ a b c : Str, a ++ "c[c] = i".toList ++ b ++ "*dof+".toList ++ c = a ++ "c[c] = ".toList ++ ("i".toList ++ b ++ "*dof+".toList ++ c) := by
        intro a b c; simp
      dsimp only
      rw [e, e']
      simp only [g, g']
      match dof with
      | none => rfl
      | some 0 => rfl
      | some (d + 1) => rfl

theorem sparse_out (m : SMat) (name : Str) (sufix header : Option Str) (powByMul sym : Bool) (dof : Option ℕ) (text : ℕ × ℕ → Str)
    (ht : ∀ i j v, i < m.rows → j < m.cols → m.entry i j = some v → (if powByMul then pow2mul v else .ok v) = .ok (text (i, j))) :
    ∃ ps : List (ℕ × ℕ), ps.Pairwise RowMajor ∧
      (∀ i j, (i, j) ∈ ps ↔ i < m.rows ∧ j < m.cols ∧ m.entry i j ≠ none ∧ (sym = true → upper dof (i, j) = true)) ∧
      mprintSparse m name sufix header [] powByMul sym dof = .ok (joinStr "\n".toList (sparseTop (title name sufix) ps.length header ++
        ps.flatMap fun ij => sparseBlock name dof ij (text ij))) := by
  refine ⟨m.enum.filter fun ij => (m.entry ij.1 ij.2).isSome && (!sym || upper dof ij), (enum_pairwise m).filter _, ?_, ?_⟩
  · intro i j
    rw [List.mem_filter, mem_enum, Bool.and_eq_true, Option.isSome_iff_ne_none]
    cases sym <;> simp <;> tauto
  have h := printLoop_ok (l := m.enum) (f := sparseStep m name powByMul sym dof) (fun ij hij => sparseStep_eq m name powByMul sym dof text ij fun v hv => by
    obtain ⟨i, j⟩ := ij
    rw [mem_enum] at hij
    exact ht i j v hij.1 hij.2 hv)
  rw [flatMap_if (fun ij => (m.entry ij.1 ij.2).isSome && (!sym || upper dof ij))] at h
  generalize m.enum.filter _ = ps at h
  have hl := flatMap_length (fun ij => sparseBlock name dof ij (text ij)) 4 ps (fun _ => rfl)
  have hn : nameSuffix name sufix = title name sufix := by cases sufix <;> rfl
  unfold mprintSparse sparseLines
  rw [h]
  simp only [withSubs, List.mergeSort_nil, List.filter_nil, if_true, hl, hn]
  rw [Nat.mul_div_cancel_left _ (by omega)]
  congr 2
  cases header with
  | none => rfl
  | some hd =>
    by_cases hh : hd = []
    · simp only [headerLines, hh, if_true, sparseTop]; rfl
    · simp only [headerLines, hh, if_false, sparseTop]; rfl

/-- C63 as far as it holds: without degrees of freedom per node the symmetric output holds exactly the non-zero entries on and above the diagonal, row by
row, four lines each, and their number (without `is_symmetric` all non-zero entries). Missing: with `dofpernode` it is false, see `C63_false`; what is
printed then is in `C63_local_partial`. -/
theorem C63_plain_partial (m : SMat) (name : Str) (sufix header : Option Str) (powByMul sym : Bool) (text : ℕ × ℕ → Str)
    (ht : ∀ i j v, i < m.rows → j < m.cols → m.entry i j = some v → (if powByMul then pow2mul v else .ok v) = .ok (text (i, j))) :
    ∃ ps : List (ℕ × ℕ), ps.Pairwise RowMajor ∧ (∀ i j, (i, j) ∈ ps ↔ i < m.rows ∧ j < m.cols ∧ m.entry i j ≠ none ∧ (sym = true → i ≤ j)) ∧
      mprintSparse m name sufix header [] powByMul sym none = .ok (joinStr "\n".toList (sparseTop (title name sufix) ps.length header ++
        ps.flatMap fun ij => sparseBlock name none ij (text ij))) := by
  obtain ⟨ps, h1, h2, h3⟩ := sparse_out m name sufix header powByMul sym none text ht
  refine ⟨ps, h1, fun i j => ?_, h3⟩
  rw [h2]
  simp [upper]

/-- with `d > 0` degrees of freedom per node the symmetric output holds the non-zero entries whose local numbers are in order -/
theorem C63_local_partial (m : SMat) (name : Str) (sufix header : Option Str) (powByMul sym : Bool) (d : ℕ) (hd : 0 < d) (text : ℕ × ℕ → Str)
    (ht : ∀ i j v, i < m.rows → j < m.cols → m.entry i j = some v → (if powByMul then pow2mul v else .ok v) = .ok (text (i, j))) :
    ∃ ps : List (ℕ × ℕ), ps.Pairwise RowMajor ∧ (∀ i j, (i, j) ∈ ps ↔ i < m.rows ∧ j < m.cols ∧ m.entry i j ≠ none ∧ (sym = true → i % d ≤ j % d)) ∧
      mprintSparse m name sufix header [] powByMul sym (some d) = .ok (joinStr "\n".toList (sparseTop (title name sufix) ps.length header ++
        ps.flatMap fun ij => sparseBlock name (some d) ij (text ij))) := by
  obtain ⟨ps, h1, h2, h3⟩ := sparse_out m name sufix header powByMul sym (some d) text ht
  refine ⟨ps, h1, fun i j => ?_, h3⟩
  rw [h2]
  obtain ⟨d, rfl⟩ : ∃ k, d = k + 1 := ⟨d - 1, by omega⟩
  simp [upper]

theorem infix_join {x sep : Str} : ∀ {l : List Str}, x ∈ l → x <:+: joinStr sep l
  | [y], h => by
    rw [List.mem_singleton] at h
    subst h
    simp [joinStr, List.intercalate]
  | y :: z :: l, h => by
    have e : joinStr sep (y :: z :: l) = y ++ (sep ++ joinStr sep (z :: l)) := by simp [joinStr, List.intercalate]
    rw [e]
    rcases List.mem_cons.1 h with rfl | h
    · exact (List.prefix_append _ _).isInfix
    · exact (infix_join h).trans ((List.suffix_append _ _).trans (List.suffix_append _ _)).isInfix

/-- C63 fails with `dofpernode`: of a symmetric 3×3 matrix with two degrees of freedom per node the entry of row 2 and column 1, below the diagonal, is
printed, and the entry of row 1 and column 2, above the diagonal, is not -/
theorem C63_false : ¬ ∀ (m : SMat) (name : Str) (d : ℕ) (text : ℕ × ℕ → Str), 0 < d → (∀ i j, m.entry i j = m.entry j i) →
    (∀ i j v, i < m.rows → j < m.cols → m.entry i j = some v → v = text (i, j)) →
    ∃ ps : List (ℕ × ℕ), ps.Pairwise RowMajor ∧ (∀ i j, (i, j) ∈ ps ↔ i < m.rows ∧ j < m.cols ∧ m.entry i j ≠ none ∧ i ≤ j) ∧
      mprintSparse m name none none [] false true (some d) = .ok (joinStr "\n".toList (sparseTop name ps.length none ++
        ps.flatMap fun ij => sparseBlock name (some d) ij (text ij))) := by
  intro h
  obtain ⟨ps, _, h2, h3⟩ := h ⟨3, 3, fun i j => if i + j = 3 then some "s".toList else none⟩ "m".toList 2 (fun _ => "s".toList) (by decide)
    (fun i j => by dsimp only; rw [Nat.add_comm]) (fun i j v _ _ hv => by dsimp only at hv; split_ifs at hv; simpa using hv.symm)
  have h4 : mprintSparse ⟨3, 3, fun i j => if i + j = 3 then some "s".toList else none⟩ "m".toList none none [] false true (some 2) =
    .ok "# m\n# m_num=1\nc += 1\nmr[c] = i2*dof+0\nmc[c] = i1*dof+1\nmv[c] += s".toList := by decide +kernel
  rw [h4] at h3
  have hm : (1, 2) ∈ ps := (h2 1 2).2 ⟨by decide, by decide, by decide, by decide⟩
  have hi : "mr[c] = i1*dof+1".toList <:+: joinStr "\n".toList (sparseTop "m".toList ps.length none ++
      ps.flatMap fun ij => sparseBlock "m".toList (some 2) ij "s".toList) := by
    apply infix_join
    rw [List.mem_append]
    exact Or.inr (List.mem_flatMap.2 ⟨(1, 2), hm, by decide +kernel⟩)
  rw [← Except.ok.inj h3] at hi
  exact absurd hi (by decide)

example : mprintSparse exMat "k".toList (some "a".toList) (some "top".toList) [] false true none = .ok
    "top\n# k_a_num=3\n# k_a\nc += 1\nkr[c] = row+0\nkc[c] = col+1\nkv[c] += x**2\nc += 1\nkr[c] = row+0\nkc[c] = col+2\nkv[c] += x**2\nc += 1\nkr[c] = row+1\nkc[c] = col+2\nkv[c] += x**2".toList := by
  decide +kernel

/-! ### C64 -/

/-- the powers of a text cut into pieces, as they stand in the text, from left to right -/
def powersOf : List Piece → List Str
  | [] => []
  | .pow w b d :: r => (Piece.pow w b d).source :: powersOf r
  | _ :: r => powersOf r

/-- if no power of a word contains an earlier, different one (as `ab**2` contains `b**2`), every power is expanded and everything else is kept -/
theorem arr_expand (l : List Piece) (h : Cut false false l) (hk : ∀ P ∈ l, (∃ c, P = .chr c) ∨ ∃ w b d, P = .pow w b d)
    (hp : (powersOf l).Pairwise fun p q => p <:+: q → p = q) : arrValue (sourceText l) = .ok (resultText l) := by
  have h1 : ∀ l : List Piece, (∀ P ∈ l, (∃ c, P = .chr c) ∨ ∃ w b d, P = .pow w b d) → (toks (powSegs l)).map Prod.fst = powersOf l ∧ final (powSegs l) = resultText l := by
    intro l
    induction l with
    | nil => intro _; exact ⟨rfl, rfl⟩
    | cons P r ih =>
      intro hk
      obtain ⟨i1, i2⟩ := ih fun Q hQ => hk Q (List.mem_cons_of_mem _ hQ)
      rcases hk P (by simp) with ⟨c, rfl⟩ | ⟨w, b, d, rfl⟩
      · exact ⟨i1, by rw [powSegs, final, i2]; rfl⟩
      · exact ⟨by rw [powSegs, toks, List.map_cons, i1, powersOf], by rw [powSegs, final, i2]; rfl⟩
  obtain ⟨e1, e2⟩ := h1 l hk
  rw [← e2]
  exact arrValue_pieces h (by rw [e1]; exact hp)

/-- a text meeting the hypotheses: the longer power stands first -/
theorem arr_outer : arrValue "ab**2 + b**2".toList = .ok "(ab*ab) + (b*b)".toList := by
  refine arr_expand [.pow "ab".toList [] "2".toList, .chr ' ', .chr '+', .chr ' ', .pow "b".toList [] "2".toList] ?_ ?_ ?_
  · exact ⟨by decide, by decide, by decide, by decide, by decide, follows_cons (by decide) (by decide), not_begins (by decide), not_begins (by decide),
      not_begins (by decide), by decide, by decide, by decide, by decide, by decide, follows_nil, trivial⟩
  · intro P hP
    simp only [List.mem_cons, List.not_mem_nil, or_false] at hP
    rcases hP with rfl | rfl | rfl | rfl | rfl <;> first | exact Or.inl ⟨_, rfl⟩ | exact Or.inr ⟨_, _, _, rfl⟩
  · decide

/-- in `b**2 + ab**2` the power `b**2` is replaced inside `ab**2` too, which leaves `a(b*b)`, the call of a function `a` -/
theorem arr_inner : arrValue "b**2 + ab**2".toList = .ok "(b*b) + a(b*b)".toList := by
  have h1 : findAll matchArr "b**2 + ab**2".toList = ["b**2".toList, "ab**2".toList] := by
    have a1 := findAll_hit matchArr "b**2".toList " + ab**2".toList (by decide) (by decide)
    have a2 := findAll_skip matchArr " + ".toList "ab**2".toList (by
      have : ∀ x ∈ " + ".toList.tails, x ≠ [] → matchArr (x ++ "ab**2".toList) = none := by decide
      exact fun x hx hs => this x ((List.mem_tails _ _).2 hs) hx)
    have a3 := findAll_hit matchArr "ab**2".toList [] (by decide) (by decide)
    have a4 : findAll matchArr [] = [] := by rw [findAll]
    rw [a4, List.append_nil] at a3
    exact a1.trans (congrArg _ (a2.trans a3))
  have h2 : arrNew "b**2".toList = .ok "(b*b)".toList := arrNew_pow (w := "b".toList) (d := "2".toList) (by decide) (by decide) (by decide)
  have h3 : arrNew "ab**2".toList = .ok "(ab*ab)".toList := arrNew_pow (w := "ab".toList) (d := "2".toList) (by decide) (by decide) (by decide)
  have s1 : replaceAll "b**2".toList "(b*b)".toList "b**2 + ab**2".toList = "(b*b) + a(b*b)".toList := by
    have a1 := replaceAll_hit "b**2".toList "(b*b)".toList " + ab**2".toList (by decide)
    have a2 := replaceAll_skip "b**2".toList "(b*b)".toList " + a".toList "b**2".toList (by
      have : ∀ x ∈ " + a".toList.tails, x ≠ [] → ¬ "b**2".toList <+: x ++ "b**2".toList := by decide
      exact fun x hx hs => this x ((List.mem_tails _ _).2 hs) hx)
    have a3 := replaceAll_hit "b**2".toList "(b*b)".toList [] (by decide)
    have a4 : replaceAll "b**2".toList "(b*b)".toList [] = [] := by rw [replaceAll]
    rw [a4, List.append_nil] at a3
    rw [a3] at a2
    exact a1.trans (congrArg _ a2)
  have s2 : replaceAll "ab**2".toList "(ab*ab)".toList "(b*b) + a(b*b)".toList = "(b*b) + a(b*b)".toList := by
    have := replaceAll_skip "ab**2".toList "(ab*ab)".toList "(b*b) + a(b*b)".toList [] (by
      have : ∀ x ∈ "(b*b) + a(b*b)".toList.tails, x ≠ [] → ¬ "ab**2".toList <+: x ++ [] := by decide
      exact fun x hx hs => this x ((List.mem_tails _ _).2 hs) hx)
    have a4 : replaceAll "ab**2".toList "(ab*ab)".toList [] = [] := by rw [replaceAll]
    rw [a4, List.append_nil] at this
    exact this
  rw [arrValue, h1, pairs, h2, pairs, h3, pairs]
  show Except.ok (replaceAll "ab**2".toList "(ab*ab)".toList (replaceAll "b**2".toList "(b*b)".toList "b**2 + ab**2".toList)) = _
  rw [s1, s2]

/-! ### C72 -/

/-- the entry at a flat position: row by row, or column by column -/
def flatEntry (m : SMat) (fortran : Bool) (k : ℕ) : Option Str := if fortran then m.entry (k % m.rows) (k / m.rows) else m.entry (k / m.cols) (k % m.cols)

theorem ravel_eq (m : SMat) (fortran : Bool) : m.ravel fortran = (List.range (m.rows * m.cols)).map (flatEntry m fortran) := by
  cases fortran with
  | false =>
    have := congrArg (List.map fun ij : ℕ × ℕ => m.entry ij.1 ij.2) (range_pairs m.rows m.cols)
    rw [List.map_map] at this
    exact this
  | true =>
    have := congrArg (List.map fun ij : ℕ × ℕ => m.entry ij.2 ij.1) (range_pairs m.cols m.rows)
    rw [List.map_map, Nat.mul_comm] at this
    rw [List.map_flatMap] at this
    simp only [List.map_map] at this
    exact this

theorem ravel_count (m : SMat) (fortran : Bool) : ((m.ravel fortran).filter Option.isSome).length = ((m.ravel false).filter Option.isSome).length := by
  cases fortran with
  | false => rfl
  | true =>
    have h := ((swap_perm m.rows m.cols).map fun ij : ℕ × ℕ => m.entry ij.1 ij.2).filter Option.isSome
    have e : ((List.range m.cols).flatMap fun j => (List.range m.rows).map fun i => (i, j)).map (fun ij : ℕ × ℕ => m.entry ij.1 ij.2) = m.ravel true := by
      rw [List.map_flatMap]; simp only [List.map_map]; rfl
    rw [e] at h
    exact h.length_eq

/-- C72: `mprint_as_array` prints one line per non-zero entry at its flat position, in the order of the positions, row by row (`'C'`) or column by column
(`'F'`), and the announced number is their number -/
theorem C72_array (m : SMat) (name : Str) (sufix header : Option Str) (powByMul fortran : Bool) (op : Str) (text : ℕ → Str)
    (ht : ∀ k v, k < m.rows * m.cols → flatEntry m fortran k = some v → (if powByMul then arrValue v else .ok v) = .ok (text k)) :
    ∃ ks : List ℕ, ks.Pairwise (· < ·) ∧ (∀ k, k ∈ ks ↔ k < m.rows * m.cols ∧ flatEntry m fortran k ≠ none) ∧
      mprintArray m name sufix header powByMul fortran op = .ok (joinStr "\n".toList ((match header with | none => [] | some h => if h = [] then [] else [h]) ++
        ["# ".toList ++ title name sufix, "# ".toList ++ title name sufix ++ "_num=".toList ++ digits ks.length] ++
        ks.map fun k => name ++ "[pos+".toList ++ digits k ++ "] ".toList ++ op ++ " ".toList ++ text k)) := by
  refine ⟨(List.range (m.rows * m.cols)).filter fun k => (flatEntry m fortran k).isSome, List.pairwise_lt_range.filter _, ?_, ?_⟩
  · intro k
    rw [List.mem_filter, List.mem_range, Option.isSome_iff_ne_none]
  have hr := ravel_eq m fortran
  have hz : (List.range (m.ravel fortran).length).zip (m.ravel fortran) = (List.range (m.rows * m.cols)).map fun k => (k, flatEntry m fortran k) := by
    have hg : ∀ l : List ℕ, l.zip (l.map (flatEntry m fortran)) = l.map fun k => (k, flatEntry m fortran k) := by
      intro l; induction l with
      | nil => rfl
      | cons a l ih => rw [List.map_cons, List.zip_cons_cons, ih]; rfl
    rw [hr, List.length_map, List.length_range, hg]
  have h := printLoop_ok (l := (List.range (m.rows * m.cols)).map fun k => (k, flatEntry m fortran k)) (f := arrayStep name op powByMul)
    (g := fun iv => if iv.2.isSome then [name ++ "[pos+".toList ++ digits iv.1 ++ "] ".toList ++ op ++ " ".toList ++ text iv.1] else []) (by
    intro iv hiv
    obtain ⟨k, hk, rfl⟩ := List.mem_map.1 hiv
    rw [List.mem_range] at hk
    unfold arrayStep
    cases hv : flatEntry m fortran k with
    | none => rfl
    | some v =>
      dsimp only
      rw [ht k v hk hv]
      rfl)
  rw [List.flatMap_map] at h
  rw [flatMap_if (fun k => (flatEntry m fortran k).isSome) (fun k => [name ++ "[pos+".toList ++ digits k ++ "] ".toList ++ op ++ " ".toList ++ text k])] at h
  have e : ∀ (l : List ℕ) (g : ℕ → Str), l.flatMap (fun a => [g a]) = l.map g := by
    intro l g; induction l with
    | nil => rfl
    | cons a l ih => rw [List.flatMap_cons, ih]; rfl
  rw [e] at h
  have hc : ((m.ravel false).filter Option.isSome).length = ((List.range (m.rows * m.cols)).filter fun k => (flatEntry m fortran k).isSome).length := by
    rw [← ravel_count m fortran, hr, List.filter_map, List.length_map]; rfl
  have hn : nameSuffix name sufix = title name sufix := by cases sufix <;> rfl
  unfold mprintArray
  rw [hz, h]
  simp only [hc, hn]
  cases header <;> rfl

example : mprintArray exMat "k".toList none none false true "+=".toList = .ok
    "# k\n# k_num=4\nk[pos+1] += y\nk[pos+2] += x**2\nk[pos+4] += x**2\nk[pos+5] += x**2".toList := by
  decide +kernel

/-! ### C64 for the printed text -/

/-- a text `mprint_as_array` expands as intended: characters and powers of words, none of which contains an earlier, different one -/
structure Spec.Expandable (l : List Piece) : Prop where
  cut : Cut false false l
  kinds : ∀ P ∈ l, (∃ c, P = .chr c) ∨ ∃ w b d, P = .pow w b d
  apart : (powersOf l).Pairwise fun p q => p <:+: q → p = q

/-- C64 as far as it holds: if in no entry a power contains an earlier, different one (as `ab**2` contains `b**2`), `mprint_as_array` with `pow_by_mul` prints
every entry with its powers written out as products and everything else kept. Missing: the other texts, see `C64_false`. -/
theorem C64_array_partial (m : SMat) (name : Str) (sufix header : Option Str) (fortran : Bool) (op : Str) (pieces : ℕ → List Piece)
    (hp : ∀ k v, k < m.rows * m.cols → flatEntry m fortran k = some v → v = sourceText (pieces k) ∧ Expandable (pieces k)) :
    ∃ ks : List ℕ, ks.Pairwise (· < ·) ∧ (∀ k, k ∈ ks ↔ k < m.rows * m.cols ∧ flatEntry m fortran k ≠ none) ∧
      mprintArray m name sufix header true fortran op = .ok (joinStr "\n".toList ((match header with | none => [] | some h => if h = [] then [] else [h]) ++
        ["# ".toList ++ title name sufix, "# ".toList ++ title name sufix ++ "_num=".toList ++ digits ks.length] ++
        ks.map fun k => name ++ "[pos+".toList ++ digits k ++ "] ".toList ++ op ++ " ".toList ++ resultText (pieces k))) :=
  C72_array m name sufix header true fortran op (fun k => resultText (pieces k)) fun k v hk hv => by
    obtain ⟨rfl, h⟩ := hp k v hk hv
    exact arr_expand _ h.cut h.kinds h.apart

/-- the pieces of `ab**2 + b**2` -/
def exWords : List Piece := [.pow "ab".toList [] "2".toList, .chr ' ', .chr '+', .chr ' ', .pow "b".toList [] "2".toList]

theorem exWords_expandable : Expandable exWords := by
  refine ⟨?_, ?_, ?_⟩
  · exact ⟨by decide, by decide, by decide, by decide, by decide, follows_cons (by decide) (by decide), not_begins (by decide), not_begins (by decide),
      not_begins (by decide), by decide, by decide, by decide, by decide, by decide, follows_nil, trivial⟩
  · intro P hP
    simp only [exWords, List.mem_cons, List.not_mem_nil, or_false] at hP
    rcases hP with rfl | rfl | rfl | rfl | rfl <;> first | exact Or.inl ⟨_, rfl⟩ | exact Or.inr ⟨_, _, _, rfl⟩
  · decide

/-- a matrix with one entry -/
def oneEntry (s : Str) : SMat := ⟨1, 1, fun _ _ => some s⟩

/-- the listing of a matrix with one entry -/
theorem oneEntry_array (s t : Str) (h : arrValue s = .ok t) (name op : Str) : mprintArray (oneEntry s) name none none true false op =
    .ok (joinStr "\n".toList ["# ".toList ++ name, "# ".toList ++ name ++ "_num=1".toList, name ++ "[pos+0] ".toList ++ op ++ " ".toList ++ t]) := by
  have e : printLoop (arrayStep name op true) [(0, some s)] = .ok [name ++ "[pos+0] ".toList ++ op ++ " ".toList ++ t] := by
    have := printLoop_ok (l := [(0, some s)]) (f := arrayStep name op true) (g := fun _ => [name ++ "[pos+0] ".toList ++ op ++ " ".toList ++ t]) (by
      intro iv hiv
      obtain rfl := List.mem_singleton.1 hiv
      unfold arrayStep
      simp only [if_true, h]
      have : num 0 = "0".toList := by decide
      simp [this])
    simpa using this
  have hr : (oneEntry s).ravel false = [some s] := rfl
  unfold mprintArray
  rw [hr]
  simp only [List.length_cons, List.length_nil]
  rw [show (List.range (0 + 1)).zip [some s] = [(0, some s)] from rfl, e]
  have h1 : num (List.filter Option.isSome [some s]).length = "1".toList := by
    rw [show (List.filter Option.isSome [some s]).length = 1 from rfl]; decide
  rw [h1]
  have hn : nameSuffix name none = name := rfl
  rw [hn]
  simp [headerLines]

/-- concrete case: `ab**2 + b**2` is printed as `(ab*ab) + (b*b)` -/
example : mprintArray (oneEntry "ab**2 + b**2".toList) "k".toList none none true false "+=".toList = .ok "# k\n# k_num=1\nk[pos+0] += (ab*ab) + (b*b)".toList := by
  obtain ⟨ks, h1, h2, h3⟩ := C64_array_partial (oneEntry "ab**2 + b**2".toList) "k".toList none none false "+=".toList (fun _ => exWords) (by
    intro k v _ hv
    have : v = "ab**2 + b**2".toList := by
      have : some "ab**2 + b**2".toList = some v := hv
      injection this with this
      exact this.symm
    subst this
    exact ⟨by decide, exWords_expandable⟩)
  have hk : ks = [0] := by
    have hm : ∀ k, k ∈ ks ↔ k = 0 := by
      intro k
      rw [h2]
      constructor
      · rintro ⟨h, -⟩
        change k < 1 at h
        omega
      · rintro rfl
        exact ⟨by decide, by decide⟩
    match ks, h1, hm with
    | [], _, hm => exact absurd ((hm 0).2 rfl) (by simp)
    | [a], _, hm => rw [(hm a).1 (by simp)]
    | a :: b :: l, h1, hm =>
      have ha := (hm a).1 (by simp)
      have hb := (hm b).1 (by simp)
      have := (List.pairwise_cons.1 h1).1 b (by simp)
      omega
  rw [h3, hk]
  decide

/-- C64 is false: the entry `b**2 + ab**2` is printed as `(b*b) + a(b*b)`, the call of a function `a`, instead of `(b*b) + (ab*ab)` -/
theorem C64_false : (∃ l : List Piece, Cut false false l ∧ (∀ P ∈ l, (∃ c, P = .chr c) ∨ ∃ w b d, P = .pow w b d) ∧ sourceText l = "b**2 + ab**2".toList ∧
      resultText l = "(b*b) + (ab*ab)".toList) ∧
    mprintArray (oneEntry "b**2 + ab**2".toList) "k".toList none none true false "+=".toList = .ok "# k\n# k_num=1\nk[pos+0] += (b*b) + a(b*b)".toList := by
  refine ⟨⟨[.pow "b".toList [] "2".toList, .chr ' ', .chr '+', .chr ' ', .pow "ab".toList [] "2".toList], ?_, ?_, by decide, by decide⟩, ?_⟩
  · exact ⟨by decide, by decide, by decide, by decide, by decide, follows_cons (by decide) (by decide), not_begins (by decide), not_begins (by decide),
      not_begins (by decide), by decide, by decide, by decide, by decide, by decide, follows_nil, trivial⟩
  · intro P hP
    simp only [List.mem_cons, List.not_mem_nil, or_false] at hP
    rcases hP with rfl | rfl | rfl | rfl | rfl <;> first | exact Or.inl ⟨_, rfl⟩ | exact Or.inr ⟨_, _, _, rfl⟩
  · rw [oneEntry_array _ _ arr_inner]
    decide

end Meshless
