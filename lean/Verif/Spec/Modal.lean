import Verif.Spec.FloatRun
import Mathlib.Analysis.Complex.Norm

/-! Vocabulary for complete sets of buckling modes. -/

set_option autoImplicit false

namespace Meshless.Spec
open Finset

/-- a complete list of buckling factors `c` and modes `x`: the modes have unit energy and are orthogonal in the energy of the plate, and what a
displacement compatible with the supports has beside them is not affected by the pre-stress -/
structure ModeList (K G : Mat) (S : Set ℕ) (N : ℕ) (c : Fin N → ℝ) (x : Fin N → ℕ → ℝ) : Prop where
  mode : ∀ a, BucklingMode K G S (c a) (x a)
  unit : ∀ a, form K.dim K.get (x a) (x a) = 1
  orth : ∀ a b, a ≠ b → form K.dim K.get (x a) (x b) = 0
  all : ∀ v, Supported K.dim S v → ∃ r, Supported K.dim S r ∧ (∀ i < K.dim, i ∉ S → ∑ j ∈ range K.dim, G.get i j * r j = 0) ∧
    ∀ i < K.dim, v i = r i + ∑ a, form K.dim K.get (x a) v * x a i

/-- `c`, `x` are a computed buckling factor and mode, possibly complex: zero at the supports, not zero everywhere, and at the free degrees of freedom the
residual of `(K + c G) x = 0` is at most `ε` times the size of the matrices and of `x` -/
def ModeUpTo (K G : Mat) (S : Set ℕ) (c : ℂ) (x : ℕ → ℂ) (ε : ℝ) : Prop :=
  (∃ i < K.dim, x i ≠ 0) ∧ (∀ i < K.dim, i ∈ S → x i = 0) ∧ ∀ i < K.dim, i ∉ S → ‖∑ j ∈ range K.dim, ((K.get i j : ℂ) + c * (G.get i j : ℂ)) * x j‖ ≤
    ε * (∑ r ∈ range K.dim, ∑ j ∈ range K.dim, (|K.get r j| + ‖c‖ * |G.get r j|)) * ∑ j ∈ range K.dim, ‖x j‖

/-- `K` and `G` are the matrices of a buckling analysis of the supported plate under the loads `f`: `K` from `calc_k0` and `add_k0s`, `G` from `calc_kG`
of the static solution -/
def Analysis (m : Mesh) (pn : Bool) (method : String) (al : ℝ) (fa : Bool) (S : Set ℕ) (f : ℕ → ℝ) (K G : Mat) : Prop :=
  (method = "cell-based" ∨ method = "cell-based-no-smoothing") ∧ Assembled m pn method al fa K ∧ ∃ d : List ℝ, d.length = K.dim ∧ StaticSol K S f (vec d) ∧ calcKG (calcK0 m pn).1 d pn = .ok G

/-- the same in floating-point arithmetic: the loads are known up to `c` units of roundoff, and the static problem is solved with a residual of `c` units
of roundoff -/
def FlAnalysis (R : Rounding) (m : Mesh) (pn : Bool) (method : String) (al : ℝ) (fa : Bool) (S : Set ℕ) (f : ℕ → ℝ) (c : ℝ) (F G : Mat) : Prop :=
  FlAssembled R m pn method al fa F ∧ ∃ (f' : ℕ → ℝ) (d : List ℝ), d.length = F.dim ∧ (∀ i < F.dim, |f' i - f i| ≤ c * R.u) ∧
    SolvedUpTo F S f' (vec d) (c * R.u) ∧ R.calcKG (R.calcK0 m pn).1 d pn = .ok G

end Meshless.Spec
