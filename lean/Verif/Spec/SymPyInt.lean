import Verif.Spec.SymPy

/-! Texts of whole numbers, as in the second argument of `pow(x, n)` (C162). -/

set_option autoImplicit false

namespace Meshless
namespace Spec

/-- digits, perhaps with single underscores between them, and the number they write -/
inductive Digits : List Char → ℕ → Prop
  | one {c : Char} : Digit c → Digits [c] (c.toNat - 48)
  | more {s : List Char} {n : ℕ} {c : Char} : Digits s n → Digit c → Digits (s ++ [c]) (10 * n + (c.toNat - 48))
  | under {s : List Char} {n : ℕ} {c : Char} : Digits s n → Digit c → Digits (s ++ ['_', c]) (10 * n + (c.toNat - 48))

/-- a whole number: digits with at most one sign in front and blanks around -/
def IntText (s : List Char) (n : ℤ) : Prop := ∃ b t b' k, (∀ c ∈ b, Blank c) ∧ (∀ c ∈ b', Blank c) ∧ Digits t k ∧
  (s = b ++ t ++ b' ∧ n = k ∨ s = b ++ '+' :: t ++ b' ∧ n = k ∨ s = b ++ '-' :: t ++ b' ∧ n = -k)

/-- the text of a call `pow(v,e)`: the argument `v` holds no comma, the exponent `e` no comma and no right parenthesis, and no `pow` is inside -/
structure IsCall (v e : List Char) : Prop where
  arg : v ≠ []
  comma : ',' ∉ v
  expo : e ≠ []
  comma' : ',' ∉ e
  close : ')' ∉ e
  pow : ¬ ['p', 'o', 'w'] <:+: v
  pow' : ¬ ['p', 'o', 'w'] <:+: e

/-- `pow(v,e)` -/
def callText (v e : List Char) : List Char := 'p' :: 'o' :: 'w' :: '(' :: (v ++ ',' :: (e ++ [')']))

end Spec
end Meshless
