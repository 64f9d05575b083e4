import Verif.Model.Session
import Verif.Model.FloatRun

/-! Scripts (Model/Session.lean) run in floating-point arithmetic. -/

set_option autoImplicit false

namespace Meshless
namespace Rounding

/-- Effect of a statement on the mesh, as `step` (Model/Session.lean; plate2d_calc_k0.py:11-511), with the numbers `calc_k0` stores on
the edges rounded. Assigned coordinates and properties are stored as given. -/
noncomputable def step (R : Rounding) (m : Mesh) : Op → Mesh
  | .setNodeProp i p => if i ∈ m.nids then m.updNode i fun n => { n with prop := p } else m
  | .setTriaProp e p => if e ∈ m.eids then m.updTria e fun t => { t with prop := p } else m
  | .moveNode i x => if i ∈ m.nids then m.updNode i fun n => { n with xyz := x } else m
  | .calcK0 pn => (R.calcK0 m pn).1
  | .addK0s .. => m
  | .calcKG .. => m

/-- A script: statements run one after the other. Not code of the package: a user script, as meshless/espim/tests/. -/
noncomputable def run (R : Rounding) (m : Mesh) (ops : List Op) : Mesh := ops.foldl R.step m

end Rounding
end Meshless
