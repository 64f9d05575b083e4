import Verif.Spec.Guided
import Verif.Spec.Buckling

/-! Vocabulary for the conditioning of the equations: triangles of even size, squared lengths of vectors, condition number. -/

set_option autoImplicit false

namespace Meshless.Spec
open Finset

/-- triangles of about the same size: no side is longer than `h`, no area smaller than `h ^ 2 / q` -/
structure EvenSized (m : Mesh) (h q : ℝ) : Prop where
  size : Size m h
  area : ∀ e ∈ m.eids, h ^ 2 ≤ q * triArea m e

/-- squared length of a vector with `n` entries -/
def sqLen (n : ℕ) (v : ℕ → ℝ) : ℝ := ∑ i ∈ range n, v i ^ 2

/-- squared length of the entries at the free degrees of freedom -/
noncomputable def freeSq (n : ℕ) (S : Set ℕ) (f : ℕ → ℝ) : ℝ := ∑ i ∈ range n, Sᶜ.indicator f i ^ 2

/-- the condition number of the equations at the free degrees of freedom is at most `k`: the largest value of `v K v / v v` is at most `k` times the smallest -/
def CondAtMost (K : Mat) (S : Set ℕ) (k : ℝ) : Prop := ∀ v u, Supported K.dim S v → Supported K.dim S u →
  form K.dim K.get v v * sqLen K.dim u ≤ k * form K.dim K.get u u * sqLen K.dim v

end Meshless.Spec
