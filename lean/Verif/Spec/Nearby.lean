import Verif.Spec.Modes
import Verif.Spec.Buckling
import Mathlib.Order.Filter.Basic
import Mathlib.Topology.Algebra.Order.Field

/-! Vocabulary for plates that differ slightly: families of plates on the same triangles whose coordinates and laminates tend to those of a given plate. Only the
data fields of `Mesh` are used. -/

set_option autoImplicit false

namespace Meshless.Spec
open Filter Topology

variable {ι : Type}

/-- the laminates `ps n` tend to `p` -/
structure LamTends (l : Filter ι) (ps : ι → Lam) (p : Lam) : Prop where
  A : ∀ i j, Tendsto (fun n => (ps n).A i j) l (𝓝 (p.A i j))
  B : ∀ i j, Tendsto (fun n => (ps n).B i j) l (𝓝 (p.B i j))
  D : ∀ i j, Tendsto (fun n => (ps n).D i j) l (𝓝 (p.D i j))
  E : ∀ i j, Tendsto (fun n => (ps n).E i j) l (𝓝 (p.E i j))
  h : Tendsto (fun n => (ps n).h) l (𝓝 p.h)
  k13 : Tendsto (fun n => (ps n).k13) l (𝓝 p.k13)
  k23 : Tendsto (fun n => (ps n).k23) l (𝓝 p.k23)

/-- the assigned laminates `os n`, if any, tend to `o` -/
def PropTends (l : Filter ι) (os : ι → Option Lam) (o : Option Lam) : Prop :=
  (o = none ∧ ∀ n, os n = none) ∨ ∃ ps p, o = some p ∧ (∀ n, os n = some (ps n)) ∧ LamTends l ps p

/-- The plates `ms n` have the nodes and triangles of `m`, and their coordinates and the laminates read with the flag tend to those of `m`. They are flat and their coordinates are
given in the basic system. Nothing is said about the order of the edges. -/
structure PlateTends (l : Filter ι) (pn : Bool) (ms : ι → Mesh) (m : Mesh) : Prop where
  nids : ∀ n, (ms n).nids = m.nids
  eids : ∀ n, (ms n).eids = m.eids
  tri : ∀ n, ∀ e ∈ m.eids, corners (ms n) e = corners m e
  hx : ∀ i ∈ m.nids, Tendsto (fun n => nx (ms n) i) l (𝓝 (nx m i))
  hy : ∀ i ∈ m.nids, Tendsto (fun n => ny (ms n) i) l (𝓝 (ny m i))
  basic : ∀ n, ∀ i ∈ (ms n).nids, ((ms n).node i).cp ((ms n).node i).xyz = ((ms n).node i).xyz
  flat : ∀ n, ∀ i ∈ (ms n).nids, ∀ j ∈ (ms n).nids, ((ms n).node i).xyz.z = ((ms n).node j).xyz.z
  nprop : pn = true → ∀ i ∈ m.nids, PropTends l (fun n => ((ms n).node i).prop) (m.node i).prop
  tprop : pn = false → ∀ e ∈ m.eids, PropTends l (fun n => ((ms n).tria e).prop) (m.tria e).prop

/-- `c` is the first positive buckling factor -/
def FirstFactor (K G : Mat) (S : Set ℕ) (c : ℝ) : Prop := 0 < c ∧ (∃ x, BucklingMode K G S c x) ∧ ∀ c' x, 0 < c' → BucklingMode K G S c' x → c ≤ c'

end Meshless.Spec
