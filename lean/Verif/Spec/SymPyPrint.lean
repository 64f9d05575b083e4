import Verif.Spec.SymPy

/-! What the matrix printers are to print. -/

set_option autoImplicit false

namespace Meshless
namespace Spec

/-- row by row, in each row by columns -/
def RowMajor (a b : ℕ × ℕ) : Prop := a.1 < b.1 ∨ a.1 = b.1 ∧ a.2 < b.2

/-- a whole number as text -/
def digits (n : ℕ) : List Char := (toString n).toList

/-- an index as text: the number itself, or with `d > 0` degrees of freedom per node the number of the node (from 1) and the local number -/
def place : Option ℕ → ℕ → List Char
  | some (d + 1), i => "i".toList ++ digits (i / (d + 1) + 1) ++ "*dof+".toList ++ digits (i % (d + 1))
  | _, i => digits i

/-- `name[row, column] += text` -/
def denseLine (name : List Char) (dof : Option ℕ) (ij : ℕ × ℕ) (text : List Char) : List Char :=
  name ++ "[".toList ++ place dof ij.1 ++ ", ".toList ++ place dof ij.2 ++ "] += ".toList ++ text

/-- an index in the sparse output: with the offset `row` or `col`, or as node and local number -/
def offset (word : List Char) : Option ℕ → ℕ → List Char
  | some (d + 1), i => "i".toList ++ digits (i / (d + 1) + 1) ++ "*dof+".toList ++ digits (i % (d + 1))
  | _, i => word ++ "+".toList ++ digits i

/-- the four lines of an entry of the sparse output -/
def sparseBlock (name : List Char) (dof : Option ℕ) (ij : ℕ × ℕ) (text : List Char) : List (List Char) :=
  ["c += 1".toList, name ++ "r[c] = ".toList ++ offset "row".toList dof ij.1, name ++ "c[c] = ".toList ++ offset "col".toList dof ij.2,
    name ++ "v[c] += ".toList ++ text]

/-- title with optional suffix -/
def title (name : List Char) : Option (List Char) → List Char
  | none => name
  | some s => name ++ "_".toList ++ s

/-- the lines of the collected terms: a comment with the symbol and the term -/
def termLines (l : List (List Char × List Char)) : List (List Char) := l.flatMap fun ke => ["#   collected for ".toList ++ ke.1, "    ".toList ++ ke.2]

/-- the first line of a text, if it is to have one -/
def topLine : Option (List Char) → List (List Char)
  | some (c :: h) => [c :: h]
  | _ => []

end Spec
end Meshless
