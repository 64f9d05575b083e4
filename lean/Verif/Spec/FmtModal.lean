import Verif.Spec.Ieee
import Verif.Spec.Modal

/-! A static and buckling analysis with matrices computed in a format with infinities and NaN (C155). -/

set_option autoImplicit false

namespace Meshless.Spec

/-- every entry is a finite number -/
def AllFinite (F : FMat) : Prop := ∀ i < F.dim, ∀ j < F.dim, ∃ x, F.get i j = .fin x

/-- the finite numbers of a matrix; 0 where an entry is infinite or NaN -/
noncomputable def numbers (F : FMat) : Mat := ⟨F.dim, fun i j => match F.get i j with | .fin x => x | _ => 0⟩

/-- an analysis in the format `f`: `F` from `calc_k0` and `add_k0s`, loads known up to `c` units of roundoff, the static problem of the computed matrix solved
with a residual of `c` units of roundoff by a vector of finite numbers, `G` from `calc_kG` of this vector -/
def FmtAnalysis (f : Fmt) (m : Mesh) (pn : Bool) (method : String) (al : ℝ) (fa : Bool) (S : Set ℕ) (p : ℕ → ℝ) (c : ℝ) (F G : FMat) : Prop :=
  FmtAssembled f m pn method al fa F ∧ ∃ (p' : ℕ → ℝ) (d : List ℝ), d.length = F.dim ∧ (∀ i < F.dim, |p' i - p i| ≤ c * (f.u + f.eta)) ∧
    SolvedUpTo (numbers F) S p' (vec d) (c * (f.u + f.eta)) ∧ f.calcKG (f.calcK0 m pn).1 (f.calcK0 m pn).2.1 d pn = .ok G

end Meshless.Spec
