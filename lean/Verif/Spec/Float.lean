import Mathlib.Data.Real.Basic

/-! Reference notions for rounding errors. -/

set_option autoImplicit false

namespace Meshless

/-- `(1-v)^(-k) - 1`, the bound on the relative error of `k` roundings with roundoff `v` (about `k*v`) -/
noncomputable def gam (v : ℝ) (k : ℕ) : ℝ := ((1 - v)⁻¹) ^ k - 1

/-- `a` is `b` up to `j` roundings with roundoff `v`, relative to `|b| + τ` -/
def Near (v : ℝ) (j : ℕ) (τ a b : ℝ) : Prop := |a - b| ≤ gam v j * (|b| + τ)

/-- `a` is `b ≠ 0` up to `j` factors between `1-v` and `1/(1-v)` -/
def RelNear (v : ℝ) (j : ℕ) (a b : ℝ) : Prop := b ≠ 0 ∧ ∃ ρ : ℝ, a = b * ρ ∧ (1 - v) ^ j ≤ ρ ∧ ρ ≤ ((1 - v)⁻¹) ^ j

/-- A non-negative number with the operations that add up magnitudes: a difference counts as a sum, a negative as its absolute value. A formula
evaluated at this type with the absolute values of its data is the size it would have if nothing cancelled. -/
def Mag := ℝ

namespace Mag
instance : Add Mag := ⟨fun a b => (show ℝ from a) + (show ℝ from b)⟩
instance : Sub Mag := ⟨fun a b => (show ℝ from a) + (show ℝ from b)⟩
instance : Mul Mag := ⟨fun a b => (show ℝ from a) * (show ℝ from b)⟩
noncomputable instance : Div Mag := ⟨fun a b => (show ℝ from a) / (show ℝ from b)⟩
instance : Neg Mag := ⟨fun a => a⟩
noncomputable instance : OfNat Mag 1 := ⟨show ℝ from |(1:ℝ)|⟩
noncomputable instance : OfNat Mag 2 := ⟨show ℝ from |(2:ℝ)|⟩
noncomputable instance : OfNat Mag 4 := ⟨show ℝ from |(4:ℝ)|⟩
noncomputable instance : OfNat Mag 8 := ⟨show ℝ from |(8:ℝ)|⟩
noncomputable instance : OfScientific Mag := ⟨fun m s e => show ℝ from |(OfScientific.ofScientific m s e : ℝ)|⟩
end Mag

end Meshless
