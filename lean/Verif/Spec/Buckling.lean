import Verif.Spec.Modes
import Verif.Spec.Geometric
import Mathlib.Data.Complex.Basic

/-! Vocabulary for linear buckling: supported solutions, buckling factors and modes. `S` is the set of constrained degrees of freedom (the rows and columns
zeroed by `bc` in the project's tests and dropped by the solvers). -/

set_option autoImplicit false

namespace Meshless.Spec
open Finset

/-- `d` vanishes at the supports -/
def Supported (n : ℕ) (S : Set ℕ) (d : ℕ → ℝ) : Prop := ∀ i < n, i ∈ S → d i = 0

/-- the supported matrix is positive definite -/
def Stable (K : Mat) (S : Set ℕ) : Prop := ∀ d : ℕ → ℝ, Supported K.dim S d → (∃ i < K.dim, d i ≠ 0) → 0 < form K.dim K.get d d

/-- `d` solves the static problem with supports `S` and loads `f` -/
def StaticSol (K : Mat) (S : Set ℕ) (f d : ℕ → ℝ) : Prop := Supported K.dim S d ∧ ∀ i < K.dim, i ∉ S → ∑ j ∈ range K.dim, K.get i j * d j = f i

/-- `x` is a buckling mode for the load factor `c`: a displacement other than zero, compatible with the supports, with `(K + c G) x = 0` at the free degrees of
freedom -/
def BucklingMode (K G : Mat) (S : Set ℕ) (c : ℝ) (x : ℕ → ℝ) : Prop :=
  (∃ i < K.dim, x i ≠ 0) ∧ Supported K.dim S x ∧ ∀ i < K.dim, i ∉ S → ∑ j ∈ range K.dim, (K.get i j + c * G.get i j) * x j = 0

/-- the same with a complex factor and complex displacements -/
def ComplexMode (K G : Mat) (S : Set ℕ) (c : ℂ) (x : ℕ → ℂ) : Prop :=
  (∃ i < K.dim, x i ≠ 0) ∧ (∀ i < K.dim, i ∈ S → x i = 0) ∧ ∀ i < K.dim, i ∉ S → ∑ j ∈ range K.dim, ((K.get i j : ℂ) + c * (G.get i j : ℂ)) * x j = 0

/-- the membrane forces of the state `d` are nowhere compressive: the tensor `[Nxx Nxy; Nxy Nyy]` is positive semidefinite in the domain of every edge -/
def Tension (m : Mesh) (pn : Bool) (d : ℕ → ℝ) : Prop := ∀ k ∈ m.ekeys, ∀ a b : ℝ,
  0 ≤ a * a * membrane m pn k d 0 + 2 * a * b * membrane m pn k d 2 + b * b * membrane m pn k d 1

end Meshless.Spec
