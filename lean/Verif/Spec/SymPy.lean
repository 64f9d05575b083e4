import Mathlib.Data.List.Infix
import Mathlib.Tactic.Common

/-! What the power expansion of texts is to do, in terms of the text itself: powers of a word, `name**3`, powers of an innermost parenthesis,
`(a + b)**2`, calls `pow(x, 2)`, and other characters. Texts are ASCII. -/

set_option autoImplicit false

namespace Meshless
namespace Spec

/-- letters, digits, underscore -/
abbrev Word (c : Char) : Prop := c.isAlphanum = true ∨ c = '_'
/-- decimal digits -/
abbrev Digit (c : Char) : Prop := c.isDigit = true
/-- blanks: tab to carriage return, file separator to space -/
abbrev Blank (c : Char) : Prop := 9 ≤ c.toNat ∧ c.toNat ≤ 13 ∨ 28 ≤ c.toNat ∧ c.toNat ≤ 32
/-- parentheses -/
abbrev Paren (c : Char) : Prop := c = '(' ∨ c = ')'

/-- the number written with the digits `d` -/
def numeral (d : List Char) : ℕ := d.foldl (fun a c => 10 * a + (c.toNat - 48)) 0

/-- `n` copies of `v` with `*` between them -/
def times (v : List Char) : ℕ → List Char
  | 0 => []
  | 1 => v
  | n + 2 => v ++ '*' :: times v (n + 1)

/-- the text without its spaces -/
def squeeze (s : List Char) : List Char := s.filter fun c => c ≠ ' '

/-- a text begins with a power: a word, two stars, perhaps blanks (if `blanks`), a digit; or (if `groups`) a parenthesis without parentheses inside, two
stars, a digit -/
def BeginsPower (blanks groups : Bool) (s : List Char) : Prop :=
  (∃ w b d t, w ≠ [] ∧ (∀ c ∈ w, Word c) ∧ (∀ c ∈ b, blanks = true ∧ Blank c) ∧ Digit d ∧ s = w ++ '*' :: '*' :: (b ++ d :: t)) ∨
  (groups = true ∧ ∃ c d t, c ≠ [] ∧ (∀ a ∈ c, ¬ Paren a) ∧ Digit d ∧ s = '(' :: (c ++ ')' :: '*' :: '*' :: d :: t))

/-- what may follow a power: no further letter or digit, and no second exponent as in `a**2**3` -/
def Follows (blanks : Bool) (t : List Char) : Prop :=
  (∀ c r, t = c :: r → ¬ Word c) ∧ ¬ ∃ b d r, (∀ c ∈ b, blanks = true ∧ Blank c) ∧ Digit d ∧ t = '*' :: '*' :: (b ++ d :: r)

/-- a piece of text -/
inductive Piece where
  /-- any other character -/
  | chr (c : Char)
  /-- `w ** d`: a word, the blanks after the stars, the exponent -/
  | pow (w b d : List Char)
  /-- `( c )**d` -/
  | grp (c d : List Char)
  /-- `pow( v , d )`: the argument, blanks, the exponent, blanks -/
  | call (v b d b' : List Char)

/-- the text of a piece -/
def Piece.source : Piece → List Char
  | .chr c => [c]
  | .pow w b d => w ++ '*' :: '*' :: (b ++ d)
  | .grp c d => '(' :: (c ++ ')' :: '*' :: '*' :: d)
  | .call v b d b' => 'p' :: 'o' :: 'w' :: '(' :: (v ++ ',' :: (b ++ d ++ b' ++ [')']))

/-- the text that a piece is to become: a product in parentheses with as many factors as the exponent says -/
def Piece.result : Piece → List Char
  | .chr c => [c]
  | .pow w _ d => '(' :: (times w (numeral d) ++ [')'])
  | .grp c d => '(' :: (times ('(' :: (squeeze c ++ [')'])) (numeral d) ++ [')'])
  | .call v _ d _ => '(' :: (times ('(' :: (squeeze v ++ [')'])) (numeral d) ++ [')'])

/-- the text of a list of pieces -/
def sourceText (l : List Piece) : List Char := l.flatMap Piece.source
/-- the expanded text of a list of pieces -/
def resultText (l : List Piece) : List Char := l.flatMap Piece.result

/-- the pieces are what they look like: the powers are whole powers, and no other character begins one -/
def Cut (blanks groups : Bool) : List Piece → Prop
  | [] => True
  | .chr c :: r => ¬ BeginsPower blanks groups (c :: sourceText r) ∧ Cut blanks groups r
  | .pow w b d :: r => w ≠ [] ∧ (∀ c ∈ w, Word c) ∧ (∀ c ∈ b, blanks = true ∧ Blank c) ∧ d ≠ [] ∧ (∀ c ∈ d, Digit c) ∧ Follows blanks (sourceText r) ∧
      Cut blanks groups r
  | .grp c d :: r => groups = true ∧ c ≠ [] ∧ (∀ a ∈ c, ¬ Paren a) ∧ ¬ ['*', '*'] <:+: squeeze c ∧ d ≠ [] ∧ (∀ a ∈ d, Digit a) ∧
      Follows blanks (sourceText r) ∧ Cut blanks groups r
  | .call v b d b' :: r => (∀ x, x ≠ [] → x <:+ (Piece.call v b d b').source → ¬ BeginsPower blanks groups (x ++ sourceText r)) ∧ Cut blanks groups r

/-- the calls of `pow` are what they look like: the argument holds no comma, no further call and no blanks but spaces, the exponent is a number, the call
does not follow a letter or digit; and no other character begins a call -/
def Calls : List Piece → Prop
  | [] => True
  | .chr c :: r => ¬ ['p', 'o', 'w', '('] <+: c :: sourceText r ∧ (∀ v b d b' r', r = .call v b d b' :: r' → ¬ Word c) ∧ Calls r
  | .pow _ _ _ :: r => Calls r
  | .grp _ _ :: r => Calls r
  | .call v b d b' :: r => v ≠ [] ∧ (∀ c ∈ v, c ≠ ',') ∧ (∀ c ∈ v, Blank c → c = ' ') ∧ ¬ ['p', 'o', 'w'] <:+: v ∧ ¬ ['p', 'o', 'w', '('] <:+: squeeze v ∧
      (∀ c ∈ b, Blank c) ∧ d ≠ [] ∧ (∀ c ∈ d, Digit c) ∧ (∀ c ∈ b', Blank c) ∧ Calls r

end Spec
end Meshless
