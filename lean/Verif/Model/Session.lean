import Verif.Model.KG
import Verif.Model.K0s

/-! What a script does with a mesh between reading it and looking at results: assign properties and coordinates, call the
analysis functions in any order. -/

set_option autoImplicit false

namespace Meshless

/-- One statement of a user script acting on a mesh. Assignments go through `mesh.nodes[i]` / `mesh.elements[e]`. Not code of the package: calls to its functions as in meshless/espim/tests/. -/
inductive Op
  /-- `mesh.nodes[i].prop = p` (as in the examples of plate2d_calc_k0.py's `prop_from_node`) -/
  | setNodeProp (i : ℕ) (p : Option Lam)
  /-- `mesh.elements[e].prop = p` -/
  | setTriaProp (e : ℕ) (p : Option Lam)
  /-- `mesh.nodes[i].xyz = x` -/
  | moveNode (i : ℕ) (x : Vec3)
  /-- `calc_k0(mesh, pn)` -/
  | calcK0 (pn : Bool)
  /-- `add_k0s(K, mesh, pn, method, alpha, fromArea)` -/
  | addK0s (K : Mat) (pn : Bool) (method : String) (alpha : ℝ) (fromArea : Bool)
  /-- `calc_kG(d, mesh, pn)` -/
  | calcKG (d : List ℝ) (pn : Bool)

/-- Effect of a statement on the mesh; an exception (KeyError on an unknown id, or raised by the function) is caught and the
script goes on. plate2d_calc_k0.py:11-511; `add_k0s` and `calc_kG` contain no assignment to a mesh attribute
(plate2d_add_k0s*.py, plate2d_calc_kG.py). -/
noncomputable def step (m : Mesh) : Op → Mesh
  | .setNodeProp i p => if i ∈ m.nids then m.updNode i fun n => { n with prop := p } else m
  | .setTriaProp e p => if e ∈ m.eids then m.updTria e fun t => { t with prop := p } else m
  | .moveNode i x => if i ∈ m.nids then m.updNode i fun n => { n with xyz := x } else m
  | .calcK0 pn => (calcK0 m pn).1
  | .addK0s .. => m
  | .calcKG .. => m

/-- A script: statements run one after the other. Not code of the package: a user script, as meshless/espim/tests/. -/
noncomputable def run (m : Mesh) (ops : List Op) : Mesh := ops.foldl step m

end Meshless
