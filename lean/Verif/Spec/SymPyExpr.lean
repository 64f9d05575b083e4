import Verif.Spec.SymPy
import Mathlib.Analysis.SpecialFunctions.Pow.Real

/-! The value of an arithmetic expression written as text: the grammar of Python (and C, with `pow`) expressions with `+ - * / **`, parentheses, function
calls and numbers, over the real numbers. The grammar is stated for lists of symbols into which the characters embed, with further ready-made
operands, so that it can be used for texts and for texts cut into pieces. -/

set_option autoImplicit false

namespace Meshless
namespace Spec

/-- binding strength: sums, products, signed operands, powers, atoms -/
inductive Lvl where
  | sum | term | unary | power | atom

/-- a name: letters, digits, underscores, not beginning with a digit -/
def IsName (w : List Char) : Prop := w ≠ [] ∧ (∀ c ∈ w, Word c) ∧ ∀ c r, w = c :: r → ¬ Digit c

/-- a sequence of digits -/
def IsDigits (d : List Char) : Prop := d ≠ [] ∧ ∀ c ∈ d, Digit c

/-- expressions and their values, `ρ` being the values of the names and `φ` the functions -/
inductive Gram {α : Type} (ch : Char → α) (base : Lvl → List α → ℝ → Prop) (ρ : List Char → ℝ) (φ : List Char → ℝ → ℝ) : Lvl → List α → ℝ → Prop
  | given {k s v} : base k s v → Gram ch base ρ φ k s v
  | name {w} : IsName w → Gram ch base ρ φ .atom (w.map ch) (ρ w)
  | int {d} : IsDigits d → Gram ch base ρ φ .atom (d.map ch) (numeral d)
  | decimal {i f} : IsDigits i → IsDigits f → Gram ch base ρ φ .atom ((i ++ '.' :: f).map ch) (numeral i + numeral f / 10 ^ f.length)
  | paren {s v} : Gram ch base ρ φ .sum s v → Gram ch base ρ φ .atom (ch '(' :: (s ++ [ch ')'])) v
  | app {f s v} : IsName f → Gram ch base ρ φ .sum s v → Gram ch base ρ φ .atom (f.map ch ++ ch '(' :: (s ++ [ch ')'])) (φ f v)
  | call {s t v u} : Gram ch base ρ φ .sum s v → Gram ch base ρ φ .sum t u →
      Gram ch base ρ φ .atom (ch 'p' :: ch 'o' :: ch 'w' :: ch '(' :: (s ++ ch ',' :: (t ++ [ch ')']))) (v ^ u)
  | pow {s t v u} : Gram ch base ρ φ .atom s v → Gram ch base ρ φ .unary t u → Gram ch base ρ φ .power (s ++ ch '*' :: ch '*' :: t) (v ^ u)
  | neg {s v} : Gram ch base ρ φ .unary s v → Gram ch base ρ φ .unary (ch '-' :: s) (-v)
  | mul {s t v u} : Gram ch base ρ φ .term s v → Gram ch base ρ φ .unary t u → Gram ch base ρ φ .term (s ++ ch '*' :: t) (v * u)
  | div {s t v u} : Gram ch base ρ φ .term s v → Gram ch base ρ φ .unary t u → Gram ch base ρ φ .term (s ++ ch '/' :: t) (v / u)
  | add {s t v u} : Gram ch base ρ φ .sum s v → Gram ch base ρ φ .term t u → Gram ch base ρ φ .sum (s ++ ch '+' :: t) (v + u)
  | sub {s t v u} : Gram ch base ρ φ .sum s v → Gram ch base ρ φ .term t u → Gram ch base ρ φ .sum (s ++ ch '-' :: t) (v - u)
  | ofAtom {s v} : Gram ch base ρ φ .atom s v → Gram ch base ρ φ .power s v
  | ofPower {s v} : Gram ch base ρ φ .power s v → Gram ch base ρ φ .unary s v
  | ofUnary {s v} : Gram ch base ρ φ .unary s v → Gram ch base ρ φ .term s v
  | ofTerm {s v} : Gram ch base ρ φ .term s v → Gram ch base ρ φ .sum s v
  | blankL {k b s v} : Blank b → Gram ch base ρ φ k s v → Gram ch base ρ φ k (ch b :: s) v
  | blankR {k b s v} : Blank b → Gram ch base ρ φ k s v → Gram ch base ρ φ k (s ++ [ch b]) v

/-- the text `s` is an expression with the value `v` -/
abbrev Reads (ρ : List Char → ℝ) (φ : List Char → ℝ → ℝ) (k : Lvl) (s : List Char) (v : ℝ) : Prop := Gram id (fun _ _ _ => False) ρ φ k s v

/-- powers that are whole operands: the base is a name, a whole number or an expression in parentheses, the exponent a positive number -/
inductive Operand (ρ : List Char → ℝ) (φ : List Char → ℝ → ℝ) : Lvl → List Piece → ℝ → Prop
  | pow {w b d v} : Reads ρ φ .atom w v → (∀ c ∈ b, Blank c) → IsDigits d → 0 < numeral d → Operand ρ φ .power [.pow w b d] (v ^ numeral d)
  | grp {c d v} : Reads ρ φ .sum c v → IsDigits d → 0 < numeral d → Operand ρ φ .power [.grp c d] (v ^ numeral d)
  | call {s b d b' v} : Reads ρ φ .sum s v → (∀ c ∈ b, Blank c) → IsDigits d → (∀ c ∈ b', Blank c) → 0 < numeral d →
      Operand ρ φ .atom [.call s b d b'] (v ^ numeral d)

/-- the pieces form an expression in which every power is a whole operand -/
abbrev PieceReads (ρ : List Char → ℝ) (φ : List Char → ℝ → ℝ) (k : Lvl) (l : List Piece) (v : ℝ) : Prop := Gram Piece.chr (Operand ρ φ) ρ φ k l v

end Spec
end Meshless
