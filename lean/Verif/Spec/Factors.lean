import Verif.Spec.Modal

/-! Vocabulary for counting buckling factors. -/

set_option autoImplicit false

namespace Meshless.Spec
open Finset

open Classical in
/-- `k` is the number of buckling factors between 0 and `t`, each counted as often as it has independent modes -/
def FactorsBelow (K G : Mat) (S : Set ℕ) (t : ℝ) (k : ℕ) : Prop :=
  ∃ (N : ℕ) (c : Fin N → ℝ) (x : Fin N → ℕ → ℝ), ModeList K G S N c x ∧ k = (univ.filter fun a => 0 < c a ∧ c a < t).card

end Meshless.Spec
